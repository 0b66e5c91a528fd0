import Verif.Proofs.Common
import Verif.Model.Contiguity
import Verif.Spec.Layup
/-
Generic lemmas on windows of a list.
-/
namespace Bella

theorem nth_eq_getElem (ss : Stack) (i : Nat) (h : i < ss.length) : nth ss i = ss[i] := by
  simp [nth, List.getD, h]

theorem replicate_infix_iff (n : Nat) (a : Int) (ss : Stack) :
    List.replicate (n + 1) a <:+: ss ↔
      ∃ i, i + n < ss.length ∧ ∀ j, j ≤ n → nth ss (i + j) = a := by
  constructor
  · rintro ⟨s, t, rfl⟩
    refine ⟨s.length, by simp; omega, ?_⟩
    intro j hj
    rw [nth_eq_getElem _ _ (by simp; omega)]
    rw [List.getElem_append_left (by simp; omega), List.getElem_append_right (by omega)]
    simp
  · rintro ⟨i, hi, h⟩
    refine ⟨ss.take i, ss.drop (i + (n + 1)), ?_⟩
    have h2 : List.replicate (n + 1) a = (ss.drop i).take (n + 1) := by
      apply List.ext_getElem
      · simp; omega
      · intro j h1 h2
        simp only [List.getElem_replicate, List.getElem_take, List.getElem_drop]
        have := h j (by simp at h1; omega)
        rw [nth_eq_getElem _ _ (by simp at h1; omega)] at this
        exact this.symm
    rw [h2, List.append_assoc, ← List.drop_drop, List.take_append_drop, List.take_append_drop]

theorem contigOK_iff (n : Nat) (ss : Stack) :
    Spec.ContigOK n ss ↔
      ∀ i, i < ss.length - n → ∃ j, j ≤ n ∧ nth ss (i + j) ≠ nth ss i := by
  constructor
  · intro h i hi
    by_contra hc
    push Not at hc
    exact h (nth ss i) ((replicate_infix_iff _ _ _).2 ⟨i, by omega, hc⟩)
  · intro h a hinf
    obtain ⟨i, hi, hj⟩ := (replicate_infix_iff _ _ _).1 hinf
    obtain ⟨j, hj', hne⟩ := h i (by omega)
    exact hne (by rw [hj j hj', ← hj 0 (by omega)]; simp)

theorem contigOK_infix {n : Nat} {ss tt : Stack} (h : Spec.ContigOK n ss) (hi : tt <:+: ss) :
    Spec.ContigOK n tt := fun a ha => h a (ha.trans hi)

theorem contigOK_reverse {n : Nat} {ss : Stack} (h : Spec.ContigOK n ss) :
    Spec.ContigOK n ss.reverse := by
  intro a ha
  apply h a
  have := List.reverse_infix.2 ha
  simpa using this

theorem contigOK_mono {n m : Nat} {ss : Stack} (hnm : n ≤ m) (h : Spec.ContigOK n ss) :
    Spec.ContigOK m ss := by
  intro a ha
  refine h a (List.IsInfix.trans ?_ ha)
  refine ⟨[], List.replicate (m - n) a, ?_⟩
  simp only [List.nil_append, List.replicate_append_replicate]
  congr 1; omega

theorem contigOK_short {n : Nat} {ss : Stack} (h : ss.length ≤ n) : Spec.ContigOK n ss := by
  intro a ha
  have := ha.length_le
  simp at this; omega

/-- window test of the code: hit iff all the `n+1` plies are equal. -/
theorem contigHit_iff (ss : Stack) (n i : Nat) (h2 : 2 ≤ n) (h6 : n ≤ 6) :
    contigHit ss n i = true ↔ ∀ j, j ≤ n → nth ss (i + j) = nth ss i := by
  have hcases : n = 2 ∨ n = 3 ∨ n = 4 ∨ n = 5 ∨ n = 6 := by omega
  rcases hcases with rfl | rfl | rfl | rfl | rfl <;>
  · simp only [contigHit, Bool.and_eq_true, beq_iff_eq]
    constructor
    · intro h j hj
      interval_cases j <;> first | rfl | omega
    · intro h
      have h0 := h 0 (by omega)
      have h1 := h 1 (by omega)
      have h2 := h 2 (by omega)
      first
      | (have h3 := h 3 (by omega)
         first
         | (have h4 := h 4 (by omega)
            first
            | (have h5 := h 5 (by omega)
               first
               | (have h6 := h 6 (by omega); omega)
               | omega)
            | omega)
         | omega)
      | omega

theorem isContig_eq (ss : Stack) (n : Nat) (h2 : 2 ≤ n) (h6 : n ≤ 6) :
    isContig ss n = .ok ((List.range (ss.length - n)).all (fun ind => ! contigHit ss n ind)) := by
  unfold isContig
  have hcases : n = 2 ∨ n = 3 ∨ n = 4 ∨ n = 5 ∨ n = 6 := by omega
  simp only [hcases, if_true]
  split
  · rfl
  · have : ss.length - n = 0 := by omega
    simp [this]

theorem isContig_ok_true (ss : Stack) (n : Nat) (h2 : 2 ≤ n) (h6 : n ≤ 6) :
    isContig ss n = .ok true ↔ Spec.ContigOK n ss := by
  rw [isContig_eq ss n h2 h6, contigOK_iff]
  simp only [Except.ok.injEq, List.all_eq_true, List.mem_range, Bool.not_eq_true',
    Bool.eq_false_iff, ne_eq, contigHit_iff _ _ _ h2 h6]
  push Not
  rfl

theorem isContig_total (ss : Stack) (n : Nat) (h2 : 2 ≤ n) (h6 : n ≤ 6) :
    ∃ b, isContig ss n = .ok b := ⟨_, isContig_eq ss n h2 h6⟩

end Bella
