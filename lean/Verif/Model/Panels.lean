import Verif.Model.Constraints
import Verif.Model.Objectives
/-
Model of src/BELLA/panels.py: the constructor of `Panel` and the filters applied to its lamination-parameter targets and
weightings at the start of `BELLA_optimiser` (optimiser.py 56-57), and of the weight functions of panels.py and multipanels.py.

Simplifications: exact rationals instead of floating-point numbers; the tests of types (`isinstance`) are replaced by the Lean
types.  The test of lines 105-110 (an array of 12 components) raises for no array, whatever its size, and is left out.
-/
namespace Bella

/-- The numeric arguments of `Panel`, panels.py 20-32. -/
structure PanelArgs where
  nPlies : Int
  target : List ℚ := []
  weights : List ℚ := List.replicate 12 1
  area : ℚ := 0
  lengthX : ℚ := 0
  lengthY : ℚ := 0
  weighting : ℚ := 1
  deriving DecidableEq, Repr

/-- The attributes of a `Panel` that the optimiser reads. -/
structure Panel where
  nPlies : Nat
  hasMiddle : Bool
  middle : Nat
  target : List ℚ
  weightsIni : List ℚ
  area : ℚ
  weighting : ℚ
  deriving DecidableEq, Repr

/-- panels.py 213-237 `set_n_plies`: the number of plies and the position of the middle ply (0 for none). -/
def setNPlies (sym : Bool) (n : Int) : Py (Nat × Bool × Nat) :=
  if n < 1 then .error (.exc "the number of plies in the panel must be positive")
  else if sym && n % 2 == 1 then .ok (n.toNat, true, (n.toNat + 1) / 2)
  else .ok (n.toNat, false, 0)

/-- panels.py 20-118 `Panel.__init__`. -/
def mkPanel (sym : Bool) (a : PanelArgs) : Py Panel := do
  let p ← setNPlies sym a.nPlies
  (if a.area < 0 then Except.error (.exc "the panel area must be positive") else .ok ())
  (if a.lengthX < 0 then Except.error (.exc "the panel length (length_x) must be positive") else .ok ())
  (if a.lengthY < 0 then Except.error (.exc "the panel length (length_y) must be positive") else .ok ())
  let area := if a.lengthX ≠ 0 ∧ a.lengthY ≠ 0 then a.lengthX * a.lengthY else a.area
  (if a.weighting < 0 then Except.error (.exc "The panel weighting must be positive") else .ok ())
  (if a.weights.any (fun (x : ℚ) => x < 0) = true then
    Except.error (.exc "the elements of lampam_weightings must be positive") else .ok ())
  return { nPlies := p.1, hasMiddle := p.2.1, middle := p.2.2, target := a.target, weightsIni := a.weights, area := area,
           weighting := a.weighting }

/-- numpy `a[i] = x`. -/
def npSet (l : List ℚ) (i : Nat) (x : ℚ) : Py (List ℚ) :=
  if i < l.length then .ok (l.set i x) else .error .indexError

/-- numpy `l[a:b] = x`: never out of range. -/
def npSetSlice (l : List ℚ) (a b : Nat) (x : ℚ) : List ℚ :=
  l.mapIdx (fun (i : Nat) (y : ℚ) => if a ≤ i ∧ i < b then x else y)

/-- `a[i] = x` for several `i` in turn. -/
def npSets (l : List ℚ) : List Nat → ℚ → Py (List ℚ)
  | [], _ => .ok l
  | i :: is, x => do
    let l ← npSet l i x
    npSets l is x

/-- `set(constraints.set_of_angles) == set([0, 45, -45, 90])` (panels.py 157 and 174). -/
def Cons.standardAngles (c : Cons) : Bool :=
  c.angles.all (fun (a : Int) => [0, 45, -45, 90].contains a) &&
    [(0 : Int), 45, -45, 90].all (fun (a : Int) => c.angles.contains a)

/-- panels.py 120-139 `filter_target_lampams`. -/
def filterTarget (c : Cons) (t : List ℚ) : Py (List ℚ) := do
  let t := if c.sym then npSetSlice t 4 8 0 else t
  let t ← if c.bal then npSets t [2, 3] 0 else .ok t
  if c.oopo then npSets t [10, 11] 0 else .ok t

/-- panels.py 152-168: the weightings set to zero. -/
def dropWeights (c : Cons) (w : List ℚ) : Py (List ℚ) := do
  let w := if c.sym then npSetSlice w 4 8 0 else w
  let w ← if c.standardAngles then npSets w [3, 7, 11] 0 else .ok w
  let w ← if c.bal then npSets w [2, 3] 0 else .ok w
  if c.oopo then npSets w [10, 11] 0 else .ok w

/-- `np.average`: not a number (`none`) for an empty array. -/
def npAverage (l : List ℚ) : Option ℚ := if l = [] then none else some (l.sum / l.length)

/-- panels.py 173-178: the weightings of out-of-plane orthotropy. -/
def oopoWeights (c : Cons) (coeff mean : ℚ) (w : List ℚ) : Py (List ℚ) :=
  if c.oopo then npSets w (if c.standardAngles then [10] else [10, 11]) (mean * coeff) else .ok w

/-- panels.py 141-209 `filter_lampam_weightings`, `coeff` being `obj_func_param.coeff_oopo`; `none`: all the weightings are
NaN (the average is NaN, and so is the sum, or it is zero). -/
def filterWeights (c : Cons) (coeff : ℚ) (w : List ℚ) : Py (Option (List ℚ)) := do
  let w ← dropWeights c w
  match npAverage (w.filter (fun (x : ℚ) => x ≠ 0)) with
  | none => return none
  | some mean =>
    let w ← oopoWeights c coeff mean w
    return some (w.map (fun (x : ℚ) => x / w.sum))

/-- panels.py 239-243 and multipanels.py 244-249: the weight of the panels. -/
def structureWeight (density : ℚ) (panels : List Panel) : ℚ :=
  density * (panels.map (fun (p : Panel) => p.area * p.nPlies)).sum

/-- multipanels.py 258-265 `calc_weight_from_sst`: an index out of the table raises. -/
def weightFromSst (density : ℚ) (panels : List Panel) (sst : List (List Int)) : Py ℚ := do
  let ws ← panels.zipIdx.mapM (fun (p : Panel × Nat) => do
    let row ← pyGet sst p.2
    return p.1.area * (row.countP (fun (x : Int) => x != -1) : ℚ))
  return density * ws.sum

end Bella
