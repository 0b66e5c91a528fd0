import Mathlib.Data.List.Nodup
import Mathlib.Data.List.Range
/-
Specification of the random choices made when ply drop layouts are generated.
-/
namespace Spec

/-- `s` is a possible result of `random.sample(pool, n)`: `n` different elements of `pool`. -/
def IsSample (pool : List Nat) (n : Nat) (s : List Nat) : Prop :=
  s.Nodup ∧ (∀ x ∈ s, x ∈ pool) ∧ s.length = n

/-- The plies of a group of `n` plies that may be dropped: not the first one if it covers the top
surface, not the last one if it covers the bottom surface. -/
def MayDrop (n : Nat) (covTop covBottom : Bool) (j : Nat) : Prop :=
  j < n ∧ (covTop = true → j ≠ 0) ∧ (covBottom = true → j + 1 ≠ n)

/-- Successive samples: from `n` dropped plies, `n - m` are restored to get `m` dropped plies, and so on
along the decreasing list of numbers of ply drops. -/
def RestoreSamples : Nat → List Nat → List (List Nat) → Prop
  | _, [], _ => True
  | _, _ :: _, [] => False
  | n, m :: ms, s :: ss => IsSample (List.range n) (n - m) s ∧ RestoreSamples m ms ss

end Spec
