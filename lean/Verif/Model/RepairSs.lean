import Verif.Model.RepairAbdalla
import Verif.Model.RepairDisoContig
import Verif.Model.FlexuralSwap
/-
Model of src/RELAY/repair_ss.py: the repair of one laminate.

`count_obj` only adds a counter to the result and is not modelled.  The functions of src/CLA are not in
the repository: `calcLampamD` stands for the part of `calc_lampam` used by the repair.
-/
namespace Bella

/-- The arguments and settings which the steps of the repair share: constraints, the data of the objective
functions, the distance of the rule of Abdalla, `parameters.repair_membrane_switch`,
`parameters.repair_flexural_switch`, whether the out-of-plane coefficients are all close to 0,
`parameters.n_D1`, `n_D2`, `n_D3`, and the number of passes after which a loop is considered not to end.
`imported` tells whether the names missing in repair_membrane_1_ipo.py and repair_membrane_1_no_ipo.py
are imported. -/
structure RepairSetup where
  c : Cons
  attr : DamTolAttr
  mem : MemData
  flex : FlexData
  dist : (Nat → ℚ) → ℚ
  calcLampamD : Stack → Nat → ℚ
  imported : Bool
  memSwitch : Bool
  flexSwitch : Bool
  flexZero : Bool
  nD1 : Nat
  nD2 : Nat
  nD3 : Nat
  fuel : Nat

/-- repair_ss.py 65-101, and repair_reference_panel.py 57-93: steps 1 to 3; the laminate, and whether the
repair for disorientation and contiguity from the outside or from the inside succeeded. -/
def repairSteps (P : RepairSetup) (ss : Stack) : Option (Py (Stack × Bool × Bool × Nat)) :=
  let mini := calcMini10 P.c ss.length
  match repair10Bal P.dist P.c P.attr P.mem mini P.fuel ss with
  | none => none
  | some (.error e) => some (.error e)
  | some (.ok (s, q)) =>
    match repairMembrane P.imported P.memSwitch P.dist P.c P.attr P.mem mini P.fuel s q with
    | none => none
    | some (.error e) => some (.error e)
    | some (.ok cands) => some (repairDisoContigList P.c P.attr P.nD1 cands)

/-- repair_ss.py 127-143: the objective function is called with the keyword `lampam_target`, which
`objectives` of src/LAYLA_V02/objectives.py 10-16 does not have. -/
def repairObjective : Option ℚ → Stack → Py (Stack × Bool × Option ℚ)
  | none, ss => .ok (ss, true, none)
  | some _, _ => .error .typeError

/-- repair_ss.py 33-146 `repair_ss`: the laminate, the success, and the objective when
`obj_no_constraints` is given. -/
def repairSs (P : RepairSetup) (obj : Option ℚ) (ss : Stack) : Option (Py (Stack × Bool × Option ℚ)) :=
  match repairSteps P ss with
  | none => none
  | some (.error e) => some (.error e)
  | some (.ok (s, _, outward, _)) =>
    if outward then
      some ((repairFlexural P.c P.attr P.flex P.calcLampamD P.nD2 P.nD3 false P.flexSwitch P.flexZero s).bind
        (repairObjective obj))
    else some (.ok (ss, false, obj.map (fun _ => 10 ^ 10)))

end Bella
