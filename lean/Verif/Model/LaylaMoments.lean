import Verif.Model.PlyOrder
/-
Model of src/LAYLA_V02/moment_of_areas.py and of src/LAYLA_V02/optimiser.py 85-117: moments of area of the plies, weightings at
the levels of the search, contributions of the plies to the lamination parameters.
-/
namespace Bella

/-- LAYLA_V02/moment_of_areas.py 43-54 and 80-88: `mom_areas`, signed moments of area of the plies in the order in which they are
optimised; `ply_order` is always the result of `calc_ply_order`. -/
def laylaMoms (sym : Bool) (n : Nat) : List Mom :=
  if sym then (List.range (halfUp n)).map (fun (i : Nat) =>
    ⟨posTopSym n i - posBot n i, posTopSym n i ^ 2 - posBot n i ^ 2, posTopSym n i ^ 3 - posBot n i ^ 3⟩)
  else (calcPlyOrder false n).map (fun (i : Nat) =>
    ⟨(posTop n i - posBot n i) / 2, (posTop n i ^ 2 - posBot n i ^ 2) / 2, (posTop n i ^ 3 - posBot n i ^ 3) / 2⟩)

/-- moment_of_areas.py 110-113 `pos_mom_areas`: positive moments of the last ply optimised, which is number `i`. -/
def laylaLastMom (n i : Nat) : Mom :=
  ⟨(|posTop n i| + |posBot n i|) / 2, (|posTop n i ^ 2| + |posBot n i ^ 2|) / 2, (|posTop n i ^ 3| + |posBot n i ^ 3|) / 2⟩

/-- moment_of_areas.py 65 and 96: `cummul_mom_areas[ply_index:, :] += x` for the successive plies, from number `j` on; one of the
three moments. -/
def laylaCummul : List ℚ → Nat → List ℚ → List ℚ
  | [], _, acc => acc
  | x :: xs, j, acc => laylaCummul xs (j + 1) (addFrom acc j x)

/-- moment_of_areas.py 67-74 and 98-105: `ind` is `ind_ply_group`, `cnt` is `n_plies_in_group`, `part` is `mom_areas_ply_group`,
`acc` is `group_mom_areas`; one of the three moments.  The result is `group_mom_areas` and `mom_areas_ply_group`. -/
def laylaGroupLoop (sizes : List Nat) : List ℚ → Nat → Nat → ℚ → List ℚ → Py (List ℚ × ℚ)
  | [], _, _, part, acc => .ok (acc, part)
  | x :: xs, ind, cnt, part, acc => do
    let s ← pyGet sizes ind
    if cnt + 1 = s then laylaGroupLoop sizes xs (ind + 1) 0 0 (acc.set ind (part + x))
    else laylaGroupLoop sizes xs ind (cnt + 1) (part + x) acc

/-- moment_of_areas.py 59-74: `cummul_mom_areas` and `group_mom_areas` of a symmetric laminate for the moment `f`. -/
def laylaAreasSym (n : Nat) (sizes : List Nat) (f : Mom → ℚ) : Py (List ℚ × List ℚ) := do
  let xs := (laylaMoms true n).map (fun (m : Mom) => |f m|)
  let g ← laylaGroupLoop sizes xs 0 0 0 (List.replicate sizes.length 0)
  return (laylaCummul xs 0 (List.replicate (halfUp n) 0), g.1)

/-- moment_of_areas.py 78 and 90-117: `cummul_mom_areas` and `group_mom_areas` of another laminate for the moment `f`. -/
def laylaAreasAsym (n : Nat) (sizes : List Nat) (f : Mom → ℚ) : Py (List ℚ × List ℚ) := do
  let xs := (laylaMoms false n).dropLast.map (fun (m : Mom) => |f m|)
  let g ← laylaGroupLoop sizes xs 0 0 0 (List.replicate sizes.length 0)
  let last ← pyGet (calcPlyOrder false n) (n - 1)
  let x := f (laylaLastMom n last)
  if sizes.length = 0 then .error .indexError
  else return (addFrom (laylaCummul xs 0 (List.replicate n 0)) (n - 1) x, addFrom g.1 (sizes.length - 1) (g.2 + x))

/-- moment_of_areas.py 14-119 `calc_mom_of_areas`: the cumulated moments and those of the groups, for the moment `f` (area, first or
second moment). -/
def laylaAreas (sym : Bool) (n : Nat) (sizes : List Nat) (f : Mom → ℚ) : Py (List ℚ × List ℚ) :=
  if n = 0 then .error .zeroDivision
  else if sym then laylaAreasSym n sizes f else laylaAreasAsym n sizes f

/-- LAYLA_V02/optimiser.py 90-96, one level: `w` are the final weightings, `m` the cumulated moments of the level.  `none` is `nan`
(the division of zero by zero; with non-negative weightings nothing else is divided by zero). -/
def laylaLevelWeights (w : List ℚ) (m : Mom) : List (Option ℚ) :=
  let x := w.mapIdx (fun (i : Nat) (y : ℚ) => y * (if i < 4 then m.a else if i < 8 then m.b else m.d))
  x.map (fun (y : ℚ) => if x.sum = 0 then none else some (y / x.sum))

/-- LAYLA_V02/optimiser.py 85-96: the weightings at all the levels of the search. -/
def laylaWeightTable (sym : Bool) (n : Nat) (sizes : List Nat) (w : List ℚ) : Py (List (List (Option ℚ))) := do
  let a ← laylaAreas sym n sizes Mom.a
  let b ← laylaAreas sym n sizes Mom.b
  let d ← laylaAreas sym n sizes Mom.d
  return (List.range a.1.length).map (fun (k : Nat) =>
    laylaLevelWeights w ⟨a.1.getD k 0, b.1.getD k 0, d.1.getD k 0⟩)

/-- LAYLA_V02/optimiser.py 98-117 and beam_search.py 179: `delta_lampams[level, angle]`, in-plane, coupling and out-of-plane, for an
angle whose `cos_sin` entry is `x`. -/
def laylaDelta (sym : Bool) (n : Nat) (x : ℚ) (level : Nat) : Py (ℚ × ℚ × ℚ) := do
  let m ← pyGet (laylaMoms sym n) level
  return if sym then (m.a * x, 0, m.d * x) else (m.a * x, m.b * x, m.d * x)

end Bella
