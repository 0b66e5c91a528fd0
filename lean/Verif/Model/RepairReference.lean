import Verif.Model.RepairSs
import Verif.Model.Guidelines
import Verif.Model.Blending
import Verif.Model.PdlTools
/-
Model of src/RELAY/repair_reference_panel.py: the repair of the reference panel of a blending strip, after which
the other panels follow it.

The lamination parameters of the panels (`calc_lampam`, src/CLA) are dropped.
-/
namespace Bella

/-- `reduced_sst` from the list of its columns. -/
def rowsOf (n : Nat) (cols : List Stack) : Table :=
  (List.range n).map (fun (i : Nat) => cols.map (fun (col : Stack) => col.getD i (-1)))

/-- `convert_ss_ref_to_reduced_sst`, format_pdl.py 167-182, the rows of the table. -/
def refTable (ssRef : Stack) (indRef : Nat) (pdl : Table) (ssBefore : List Stack) (w : Nat) : Py Table := do
  let cols ← convertSsRefToReducedSst ssRef indRef pdl ssBefore w
  return rowsOf pdl.length cols

/-- repair_reference_panel.py 126-129: `if (reduced_ss[ind_ref] != ss_ref).any(): raise`. -/
def sameRef (ssRef other : Stack) : Py Unit :=
  if other = ssRef then .ok ()
  else .error (.exc "\nReference stacking sequence in reduced_ss different from ss_ref")

/-- repair_reference_panel.py 97-131: the steps after a successful repair for disorientation and contiguity. -/
def refFinish (P : RepairSetup) (ipoOk : Stack → Bool) (indRef : Nat) (reducedSs : List Stack) (pdl : Table)
    (w : Nat) (s : Stack) : Py (Bool × Table × List Stack) := do
  let sst1 ← refTable s indRef pdl reducedSs w
  let s2 ← repairFlexural P.c P.attr P.flex P.calcLampamD P.nD2 P.nD3 true P.flexSwitch P.flexZero s
  let sst2 ← refTable s2 indRef pdl (convertSstToSs sst1) w
  let _ ← checkLayUpRules P.c s2 ipoOk false false false false none
  let other ← pyGet (convertSstToSs sst2) indRef
  let _ ← sameRef s2 other
  return (true, sst2, convertSstToSs sst2)

/-- repair_reference_panel.py 87-95: the steps after an unsuccessful one. -/
def refFail (indRef : Nat) (reducedSs : List Stack) (pdl : Table) (w : Nat) (s : Stack) :
    Py (Bool × Table × List Stack) := do
  let sst ← refTable s indRef pdl reducedSs w
  return (false, sst, reducedSs)

/-- repair_reference_panel.py 22-131 `repair_reference_panel`: success, stacking sequence table, laminates.  `P` has
the targets and weights of the reference panel; `w` is the number of columns of the layout. -/
def repairReferencePanel (P : RepairSetup) (ipoOk : Stack → Bool) (indRef : Nat) (reducedSs : List Stack)
    (pdl : Table) (w : Nat) : Option (Py (Bool × Table × List Stack)) :=
  match reducedSs[indRef]? with
  | none => some (.error .indexError)
  | some ssRef =>
    match repairSteps P ssRef with
    | none => none
    | some (.error e) => some (.error e)
    | some (.ok (s, _, outward, _)) =>
      if outward then some (refFinish P ipoOk indRef reducedSs pdl w s)
      else some (refFail indRef reducedSs pdl w s)

end Bella
