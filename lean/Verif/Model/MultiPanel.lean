import Verif.Model.Panels
import Verif.Model.Blending
/-
Model of src/BELLA/multipanels.py: the constructor of `MultiPanel` (lines 22-55; the boundaries are modelled in Blending.lean)
and its functions on panels.

Simplification: exact rationals instead of floating-point numbers.
-/
namespace Bella

/-- The attributes of a `MultiPanel`, multipanels.py 26-54. -/
structure MultiPanel where
  /-- line 31 -/
  area : ℚ
  /-- line 34 -/
  areaPatches : ℚ
  /-- line 37 -/
  nMin : Nat
  /-- line 40 -/
  nMax : Nat
  /-- lines 41-42 -/
  isThick : List Bool
  /-- lines 48-49 -/
  nPlies : List Nat
  /-- lines 222-224 -/
  middles : List Nat
  /-- line 225 -/
  hasMiddle : Bool
  /-- lines 227-230 -/
  thickHasMiddle : Bool
  /-- lines 281-290 -/
  indThick : Nat
  /-- lines 121-152 -/
  boundaries : List (Nat × Nat)
  /-- lines 163-208 -/
  boundaryWeights : List ((Nat × Nat) × ℚ)
  deriving DecidableEq, Repr

/-- Python `min` and `max` of integers: `ValueError` when there is none. -/
def pyMin : List Nat → Py Nat
  | [] => .error .valueError
  | x :: l => .ok (l.foldl min x)

/-- See `pyMin`. -/
def pyMax : List Nat → Py Nat
  | [] => .error .valueError
  | x :: l => .ok (l.foldl max x)

/-- multipanels.py 281-290 `identify_one_thickest_panel`, from panel number `i` on. -/
def oneThickest (nMax : Nat) : Nat → List Panel → Py Nat
  | _, [] => .error (.exc "The maximum number of plies should be the ply count of a panel")
  | i, p :: ps => if p.nPlies = nMax then .ok i else oneThickest nMax (i + 1) ps

/-- multipanels.py 22-55 `MultiPanel.__init__`; each panel comes with its ID and neighbours. -/
def mkMultiPanel (pick : List Nat → Nat) (panels : List (Panel × PanelIds)) (weights : Option (List ((Int × Int) × ℚ))) :
    Py MultiPanel := do
  let ps := panels.map (fun (p : Panel × PanelIds) => p.1)
  let counts := ps.map (fun (p : Panel) => p.nPlies)
  let nMin ← pyMin counts
  let nMax ← pyMax counts
  let middles := ps.map (fun (p : Panel) => p.middle)
  let hasMiddle := middles.sum != 0
  let ind ← oneThickest nMax 0 ps
  let b ← calcPanelBoundaryDict pick (panels.map (fun (p : Panel × PanelIds) => p.2)) weights
  return {
    area := (ps.map (fun (p : Panel) => p.area)).sum
    areaPatches := (ps.map (fun (p : Panel) => p.area * p.nPlies)).sum
    nMin := nMin
    nMax := nMax
    isThick := ps.map (fun (p : Panel) => p.nPlies == nMax)
    nPlies := counts
    middles := middles
    hasMiddle := hasMiddle
    thickHasMiddle := hasMiddle && nMax % 2 != 0
    indThick := ind
    boundaries := b.1
    boundaryWeights := b.2 }

/-- multipanels.py 251-256 `calc_weight_per_panel`. -/
def weightPerPanel (density : ℚ) (panels : List Panel) : List ℚ :=
  panels.map (fun (p : Panel) => density * (p.area * p.nPlies))

/-- multipanels.py 268-279 `identify_neighbour_panels`. -/
def neighbourPanels (n : Nat) (boundaries : List (Nat × Nat)) : Py (List (List Nat)) :=
  boundaries.foldlM (init := List.replicate n []) (fun (l : List (List Nat)) (b : Nat × Nat) => do
    let r ← pyGet l b.1
    let l := l.set b.1 (r ++ [b.2])
    let r ← pyGet l b.2
    return l.set b.2 (r ++ [b.1]))

/-- multipanels.py 293-311 `identify_thickest_panels`. -/
def thickestPanels (sym : Bool) (nMax : Nat) (panels : List Panel) : Py (List Nat) :=
  let l := (panels.zipIdx.filter (fun (p : Panel × Nat) =>
    if sym && nMax % 2 == 1 then p.1.nPlies == nMax || (p.1.nPlies : Int) == (nMax : Int) - 1 else p.1.nPlies == nMax)).map
    (fun (p : Panel × Nat) => p.2)
  if l = [] then .error (.exc "The maximum number of plies should be the ply count of a panel") else .ok l

end Bella
