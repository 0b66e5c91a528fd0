import Verif.Model.RepairReference
import Verif.Model.ThickToThin
import Verif.Model.ThinToThick
/-
Model of src/RELAY/repair_mp.py: the repair of a blending strip in three steps.
-/
namespace Bella

/-- What `repair_mp` returns: success, laminates, stacking sequence table, ply drop layout, number of the step that
failed (4 if none did). -/
structure MpResult where
  success : Bool
  ss : List Stack
  sst : Table
  pdl : Table
  step : Nat
  deriving DecidableEq, Repr

/-- repair_mp.py 54-57, 72-75, 90-93: the result after step `k` failed. -/
def mpFail (k : Nat) (ss : List Stack) (pdl : Table) (w : Nat) : Py MpResult := do
  let sst ← convertSsToSst ss pdl w
  return { success := false, ss := ss, sst := sst, pdl := pdl, step := k }

/-- repair_mp.py 76-79, 95-98: `if (reduced_ss[ind_ref] != ss_ref).any(): raise`. -/
def refUnchanged (indRef : Nat) (ssRef : Stack) (ss : List Stack) (msg : String) : Py Unit := do
  let other ← pyGet ss indRef
  requirePy (decide (other = ssRef)) msg

/-- repair_mp.py 84-108: the third step and the checks of the result. -/
def mpThick (S : StripSetup) (pdl : Table) (w : Nat) (ssRef : Stack) (r2 : Bool × Table × List (List ℚ) × List Stack) :
    Py MpResult := do
  let r3 ← repairThinToThick S r2.2.2.1 r2.2.1 r2.2.2.2
  if r3.1 then
    let _ ← refUnchanged S.r.indRef ssRef r3.2.2.2 "\nReference stacking sequence modified during blending step 4.3"
    let _ ← requirePy ((List.range S.r.nPlies.length).all (fun i => (r3.2.2.2.getD i []).length == S.r.nPlies.getD i 0))
      "Wrong ply counts in the laminate."
    return { success := true, ss := r3.2.2.2, sst := r3.2.1, pdl := pdl, step := 4 }
  else mpFail 3 r3.2.2.2 pdl w

/-- repair_mp.py 67-79: the second step; the lamination parameters are those of the laminates
(repair_reference_panel.py). -/
def mpThin (S : StripSetup) (pdl : Table) (w : Nat) (sst : Table) (ss : List Stack) : Py MpResult := do
  let ssRef ← pyGet ss S.r.indRef
  let r2 ← repairThickToThin S (ss.map S.lampam) sst ss
  if r2.1 then
    let _ ← refUnchanged S.r.indRef ssRef r2.2.2.2 "\nReference stacking sequence modified during blending step 4.2"
    mpThick S pdl w ssRef r2
  else mpFail 2 r2.2.2.2 pdl w

/-- repair_mp.py 19-108 `repair_mp`; `P` holds the constraints, parameters and target of the repair of the reference
panel, `S` those of the two other steps; `w` is the number of columns of the layout. -/
def repairMp (P : RepairSetup) (ipoOk : Stack → Bool) (S : StripSetup) (ss : List Stack) (pdl : Table) (w : Nat) :
    Option (Py MpResult) :=
  match repairReferencePanel P ipoOk S.r.indRef ss pdl w with
  | none => none
  | some (.error e) => some (.error e)
  | some (.ok (false, _, ss1)) => some (mpFail 1 ss1 pdl w)
  | some (.ok (true, sst1, ss1)) => some (mpThin S pdl w sst1 ss1)

end Bella
