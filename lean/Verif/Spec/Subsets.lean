import Mathlib.Data.List.Sublists
import Mathlib.Data.Nat.Bitwise
/-
Independent specification of subsets of positions and of their sums.
-/
namespace Spec

/-- The subset of `n` positions number `k` in lexicographic order: the binary digits of `k`, the most significant first. -/
def subsetOfRank (n k : ℕ) : List Bool := (List.range n).map (fun i => k.testBit (n - 1 - i))

/-- The values chosen by a subset of positions. -/
def chosen : List Bool → List ℤ → List ℤ
  | true :: s, x :: w => x :: chosen s w
  | false :: s, _ :: w => chosen s w
  | _, _ => []

/-- A solution of the subset sum problem, as a vector of zeros and ones. -/
def IsSolution (v : List ℤ) (s : ℤ) (u : List ℤ) : Prop :=
  u.length = v.length ∧ (∀ x ∈ u, x = 0 ∨ x = 1) ∧ (chosen (u.map (· == 1)) v).sum = s

end Spec
