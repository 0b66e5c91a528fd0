import Verif.Model.PlyOrder
import Verif.Model.Search
import Mathlib.Algebra.Group.Pi.Basic
import Mathlib.Algebra.Group.Prod
/-
Model of `calc_delta_lampams2` of src/BELLA/lampam_matrix.py: the partial lamination parameters used by the beam search
with a given ply drop layout.

The twelve lamination parameters are a function `k ↦ (in-plane, coupling, out-of-plane)` of the four trigonometric functions `k < 4`;
`cs a k` is the entry of `constraints.cos_sin` for the angle `a`.
-/
namespace Bella

/-- Twelve lamination parameters. -/
abbrev Lampams := Nat → ℚ × ℚ × ℚ

/-- lampam_matrix.py 33-66: `delta_lampams[ind_panel][i, ind_angle]`, for a panel of `n` plies; an index out of the array
raises. -/
def plyLampams (sym : Bool) (n : Nat) (cs : Int → Nat → ℚ) (a : Int) (i : Nat) : Py Lampams :=
  if i < (if sym then halfUp n else n) then
    .ok (fun k => deltaLampam sym n (momAreas sym n (calcPlyOrder sym n)) i (cs a k))
  else .error .indexError

/-- lampam_matrix.py 94-103: the loop over the columns of a row of the layout; `k` is `counter_plies + 1`. -/
def lampamRowLoop (d : Nat → Py Lampams) : Stack → Nat → Py (List Lampams)
  | [], _ => .ok []
  | x :: row, k =>
    if x ≠ -1 then do
      let v ← d k
      let rest ← lampamRowLoop d row (k + 1)
      return v :: rest
    else do
      let rest ← lampamRowLoop d row k
      return 0 :: rest

/-- lampam_matrix.py 72-104 `calc_delta_lampams2`: `lampam_matrix[ind_panel, ind_angle, :, :]` for a panel of `n` plies and the
row `row` of the layout. -/
def lampamMatrixRow (sym : Bool) (n : Nat) (cs : Int → Nat → ℚ) (row : Stack) (nOpt : Nat) (a : Int) : Py (List Lampams) :=
  if nOpt ≤ row.length then lampamRowLoop (plyLampams sym n cs a) (row.take nOpt) 0 else .error .indexError

end Bella
