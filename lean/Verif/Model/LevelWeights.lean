import Verif.Model.PlyOrder
/-
Model of src/BELLA/optimiser_with_one_pdl.py 54-79: the lamination-parameter weightings at each level of the beam search.
-/
namespace Bella

/-- optimiser_with_one_pdl.py 63-79, one panel (weightings `w`, twelve numbers) and one level, at which the cumulated area, first
and second moments of area are `m`: `np.isclose(x, 0)` is `|x| ≤ 1e-8`. -/
def levelWeights (w : List ℚ) (m : Mom) : List ℚ :=
  let x := w.mapIdx (fun (i : Nat) (y : ℚ) => y * (if i < 4 then m.a else if i < 8 then m.b else m.d))
  if x.all (fun (y : ℚ) => |y| ≤ 1 / 10 ^ 8) then x else x.map (fun (y : ℚ) => y / x.sum)

/-- optimiser_with_one_pdl.py 54-79, one panel of `n` plies: its weightings at all the levels, `row` being the columns of the ply
drop layout that are optimised. -/
def levelTable (sym : Bool) (n : Nat) (w : List ℚ) (row : Stack) : Py (List (List ℚ)) := do
  let moms := momAreasPlus sym n (calcPlyOrder sym n)
  let a ← cummulRow (moms.map (·.a)) row
  let b ← cummulRow (moms.map (·.b)) row
  let d ← cummulRow (moms.map (·.d)) row
  return (List.range row.length).map (fun (j : Nat) => levelWeights w ⟨a.getD j 0, b.getD j 0, d.getD j 0⟩)

end Bella
