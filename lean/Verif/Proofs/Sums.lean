import Mathlib.Algebra.BigOperators.Field
import Mathlib.Algebra.BigOperators.Intervals
import Mathlib.Algebra.Order.Ring.Rat
import Mathlib.Tactic.Ring
import Mathlib.Tactic.Linarith
import Mathlib.Tactic.FieldSimp
/-
Lemmas on finite sums.
-/
namespace Bella

theorem list_sum_range (f : Nat → ℚ) (n : Nat) :
    ((List.range n).map f).sum = ∑ i ∈ Finset.range n, f i := by
  induction n with
  | zero => simp
  | succ n ih => rw [List.range_succ, Finset.sum_range_succ, List.map_append, List.sum_append, ih]; simp

theorem sum_telescope (F : Nat → ℚ) (n : Nat) :
    ((List.range n).map (fun i => F (i + 1) - F i)).sum = F n - F 0 := by
  rw [list_sum_range, Finset.sum_range_sub]

theorem zipIdx_map_sum {α : Type} (ss : List α) (dflt : α) (f : α → Nat → ℚ) :
    (ss.zipIdx.map (fun p => f p.1 p.2)).sum
      = ∑ i ∈ Finset.range ss.length, f (ss.getD i dflt) i := by
  rw [← list_sum_range]
  congr 1
  apply List.ext_getElem
  · simp
  · intro i h1 h2
    simp at h1
    simp [List.getD_eq_getElem?_getD, h1]

theorem sum_symm (T : Nat → ℚ) (n : Nat) (h : ∀ i, i < n → T (n - 1 - i) = T i) :
    ∑ i ∈ Finset.range n, T i = 2 * ∑ i ∈ Finset.range (n / 2), T i +
      if n % 2 = 1 then T (n / 2) else 0 := by
  have key : ∀ m r : Nat, n = m + r + m → ∑ i ∈ Finset.range n, T i
      = 2 * ∑ i ∈ Finset.range m, T i + ∑ i ∈ Finset.range r, T (m + i) := by
    intro m r hn
    rw [hn, Finset.sum_range_add, Finset.sum_range_add]
    have : ∑ x ∈ Finset.range m, T (m + r + x) = ∑ x ∈ Finset.range m, T x := by
      rw [← Finset.sum_range_reflect]
      apply Finset.sum_congr rfl
      intro x hx
      rw [Finset.mem_range] at hx
      rw [← h x (by omega)]
      congr 1
      omega
    rw [this]
    ring
  have h2 := key (n / 2) (n % 2) (by omega)
  rw [h2]
  rcases Nat.mod_two_eq_zero_or_one n with h0 | h0
  · simp [h0]
  · simp [h0]

end Bella
