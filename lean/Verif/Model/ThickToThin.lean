import Verif.Model.StripBeam
import Verif.Model.RepairReference
/-
Model of src/RELAY/thick_to_thin.py (the ply drops of the panels thinner than the reference panel).
-/
namespace Bella

/-- thick_to_thin.py 164-182: the positions at which a ply may be dropped. -/
def dropPositions (c : Cons) (nMax : Nat) : Py (List Nat) :=
  if c.covering then
    if c.nCovering = 1 then .ok (List.range' 1 ((if c.sym then nMax / 2 else nMax - 1) - 1))
    else if c.nCovering = 2 then .ok (List.range' 2 ((if c.sym then nMax / 2 else nMax - 2) - 2))
    else .error .unbound
  else .ok (List.range (if c.sym then nMax / 2 else nMax))

/-- thick_to_thin.py 199-207 with `apply_balance_1_by_1 = True`: an angled ply waiting for its balancing ply decides
on the ply dropped next. -/
def balanceAllows (bal : Bool) (queue : List Int) (angle : Int) : Bool :=
  !bal || (match queue with
    | [] => true
    | q :: _ => angle == -q)

/-- thick_to_thin.py 217-225. -/
def nextQueue (bal : Bool) (queue : List Int) (angle : Int) : List Int :=
  if bal then
    if !queue.isEmpty then []
    else if angle ≠ 0 ∧ angle ≠ 90 then [angle] else []
  else []

/-- thick_to_thin.py 232-235: the ply (and its mirror image) dropped from a row. -/
def dropPly (sym : Bool) (nMax : Nat) (row : Stack) (i : Nat) : Stack :=
  if sym then (row.set i (-1)).set (nMax - i - 1) (-1) else row.set i (-1)

/-- thick_to_thin.py 227-247: the child of a node for the position `i`. -/
def thinChild (S : StripSetup) (s : Step) (nMax : Nat) (pdlRef : Stack) (m : Cand) (i : Nat) : Py (Option Cand) :=
  if balanceAllows S.c.bal m.queue (pdlRef.getD i 0) then do
    let row ← rowAt m.pdl (if s.newBoundary then s.indPanel + 1 else s.indPanel)
    let sp ← stripSpacing S.c S.r (m.pdl.set s.indPanel (some (dropPly S.c.sym nMax row i)))
    return some {
      pdl := m.pdl.set s.indPanel (some (dropPly S.c.sym nMax row i))
      drops := m.drops ++ [i]
      last := i
      spacing := sp
      queue := nextQueue S.c.bal m.queue (pdlRef.getD i 0) }
  else .ok none

/-- thick_to_thin.py 164-250: the children of a node. -/
def thinChildren (S : StripSetup) (s : Step) (nMax : Nat) (pdlRef : Stack) (m : Cand) : Py (List Cand) := do
  let ps ← dropPositions S.c nMax
  let cs ← (ps.filter (fun i => !m.drops.contains i)).mapM (thinChild S s nMax pdlRef m)
  return cs.filterMap id

/-- thick_to_thin.py 295-424: the values of one candidate, `none` if it is pruned. -/
def thinEval (S : StripSetup) (s : Step) (nMax : Nat) (pdlRef : Stack) (m : Marks) (x : Cand) : Py (Option Marks) := do
  let row ← rowAt x.pdl s.indPanel
  let cnt0 ← rowAt m.counts (if s.newBoundary then s.indPanel + 1 else s.indPanel)
  let idx ← dictGet S.c.indAngles (pdlRef.getD x.last 0)
  let cnt := addCount cnt0 idx (if S.c.sym && nMax - x.last - 1 != x.last then -2 else -1)
  let ok1 ← contigOk S (sstRowToSs row)
  if ok1 then
    let ok2 ← tenOk S (sstRowToSs row) cnt
    if ok2 then
      let mk ← scoreCand S m s.indPanel (sstRowToSs row) cnt
      return some mk
    else return none
  else return none

/-- ply_drop_spacing.py 103-113 `is_same_pdl` with `thick_to_thin=True`. -/
def samePdl (indRef : Nat) (a b : List (Option Stack)) : Bool :=
  (List.range indRef).all (fun i =>
    match a[i]?.join with
    | none => true
    | some r => b[i]?.join == some r)

/-- thick_to_thin.py 503-512: a node with the same layout as a later one is deleted. -/
def dropDuplicates (indRef : Nat) : List (Cand × Marks) → List (Cand × Marks)
  | [] => []
  | x :: t =>
    if t.any (fun y => samePdl indRef x.1.pdl y.1.pdl) then dropDuplicates indRef t
    else x :: dropDuplicates indRef t

/-- One step, thick_to_thin.py 141-600. -/
def thinStep (S : StripSetup) (nMax : Nat) (pdlRef : Stack) (_ : Nat) (s : Step) (isLast : Bool)
    (nodes : List (Cand × Marks)) : Py (List (Cand × Marks)) := do
  let ls ← nodes.mapM (fun n => do
    let cs ← thinChildren S s nMax pdlRef n.1
    localStage S.localLimit isLast (thinEval S s nMax pdlRef n.2) cs)
  return globalStage S.globalLimit isLast (dropDuplicates S.r.indRef ls.flatten)

/-- thick_to_thin.py 60-139: the first node. -/
def thinInit (S : StripSetup) (nMax : Nat) (pdlRef : Stack) (lampamRef cnt : List ℚ) : Cand × Marks :=
  ({ pdl := (List.replicate S.r.nPlies.length none).set S.r.indRef (some pdlRef)
     drops := (List.range (if S.c.sym then nMax / 2 else nMax)).filter (fun i => pdlRef.getD i 0 == -1)
     last := 0
     spacing := 0
     queue := [] },
   { counts := (List.replicate S.r.nPlies.length none).set S.r.indRef (some cnt)
     lampams := (List.replicate S.r.nPlies.length none).set S.r.indRef (some lampamRef)
     objs := List.replicate S.r.nPlies.length none
     obj := 0 })

/-- thick_to_thin.py 606-612: the rows of the selected node replace those of the thinner panels. -/
def takeRows {α : Type} (indRef : Nat) (rows : List (Option α)) (old : List α) : Py (List α) := do
  let new ← (List.range indRef).mapM (rowAt rows)
  return new ++ old.drop indRef

/-- A check that raises an exception. -/
def requirePy (ok : Bool) (msg : String) : Py Unit := if ok then .ok () else .error (.exc msg)

/-- thick_to_thin.py 606-650: the result and its checks. -/
def thinFinish (S : StripSetup) (nMax : Nat) (sst : Table) (lampams : List (List ℚ)) (ss : List Stack)
    (best : Cand × Marks) : Py (Bool × Table × List (List ℚ) × List Stack) := do
  let sst' ← takeRows S.r.indRef best.1.pdl sst
  let lps ← takeRows S.r.indRef best.2.lampams lampams
  let ss' := (sst'.take S.r.indRef).map sstRowToSs ++ ss.drop S.r.indRef
  let _ ← requirePy (!S.c.sym || (ss'.take S.r.indRef).all (fun l => mirrored l (l.length / 2)))
    "reduced_ss not symmetric"
  let _ ← requirePy (!S.c.sym || (sst'.take S.r.indRef).all (fun l => mirrored l (nMax / 2)))
    "reduced_sst not symmetric"
  let _ ← requirePy (!allDiffer (lps.take S.r.indRef) ((ss'.take S.r.indRef).map S.lampam))
    "\nbeam search does not return group lamination parameters matching\nthe group stacking sequences."
  let _ ← requirePy ((List.range S.r.indRef).all (fun i => (ss'.getD i []).length == S.r.nPlies.getD i 0))
    "\nWrong ply counts in the laminate. This should not happen."
  return (true, sst', lps, ss')

/-- thick_to_thin.py 602-612: selection of the best node. -/
def thinSelect (S : StripSetup) (nMax : Nat) (sst : Table) (lampams : List (List ℚ)) (ss : List Stack)
    (nodes : List (Cand × Marks)) : Py (Bool × Table × List (List ℚ) × List Stack) :=
  match nodes[argMin (nodes.map (fun n => n.2.obj))]? with
  | none => .ok (false, sst, lampams, ss)
  | some best => thinFinish S nMax sst lampams ss best

/-- thick_to_thin.py 48-651 `repair_thick_to_thin`: success, table, lamination parameters and laminates. -/
def repairThickToThin (S : StripSetup) (lampams : List (List ℚ)) (sst : Table) (ss : List Stack) :
    Py (Bool × Table × List (List ℚ) × List Stack) := do
  let ssRef ← pyGet ss S.r.indRef
  let pdlRef ← pyGet sst S.r.indRef
  let nMax ← pyGet S.r.nPlies (S.r.nPlies.length - 1)
  if S.r.thin.isEmpty then return (true, sst, lampams, ss)
  else
    let lpRef ← pyGet lampams S.r.indRef
    let cnt ← countsOf S.c ssRef
    let nodes ← beamLoop (thinStep S nMax pdlRef) 0 S.r.thin [thinInit S nMax pdlRef lpRef cnt]
    thinSelect S nMax sst lampams ss nodes

end Bella
