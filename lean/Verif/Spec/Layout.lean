import Mathlib.Data.List.Basic
/-
Specification vocabulary: ply drop layouts.  A row of a layout holds -1 at the dropped plies.
-/
namespace Spec

/-- The plies of `guide` kept by the layout row `row`. -/
def kept (guide row : List Int) : List Int :=
  ((guide.zip row).filter (fun x => x.2 != -1)).map (·.1)

/-- Number of plies of a layout row among its first `p` positions. -/
def plyCount (row : List Int) (p : Nat) : Nat := (row.take p).countP (fun x => x != -1)

/-- The table position `p` (counted from 1) holds ply number `q` (counted from 1) of the row. -/
def HoldsPly (row : List Int) (p q : Nat) : Prop :=
  1 ≤ p ∧ p ≤ row.length ∧ row[p - 1]? ≠ some (-1) ∧ plyCount row p = q

end Spec
