import Verif.Model.ThickToThin
/-
Model of src/RELAY/thin_to_thick.py (the plies added to the panels thicker than the reference panel).  The model
follows the NumPy of the time of the repository: line 214 passes `int` as the memory order of `np.copy` and line 221 uses
the truth value of an empty array, which newer versions of NumPy reject.
-/
namespace Bella

/-- thin_to_thick.py 65-68: the columns without a ply of the reference panel are deleted. -/
def cleanTable (pdlRef : Stack) (sst : Table) : Table :=
  sst.map (fun row => ((row.zip pdlRef).filter (fun p => p.2 != -1)).map Prod.fst)

/-- thin_to_thick.py 186-201: the positions at which a ply may be added; `n` is the present number of plies. -/
def addPositions (c : Cons) (n : Nat) : Py (List Nat) :=
  if c.covering then
    if c.nCovering = 1 then .ok (List.range' 1 ((if c.sym then n / 2 + 1 else n) - 1))
    else if c.nCovering = 2 then .ok (List.range' 2 ((if c.sym then n / 2 + 1 else n - 1) - 2))
    else .error .unbound
  else .ok (List.range (if c.sym then n / 2 + 1 else n + 1))

/-- thin_to_thick.py 213-236: the fibre angles of the new ply. -/
def addAngles (c : Cons) (queue : List Int) : List Int :=
  c.angles.filter (fun a => balanceAllows c.bal queue a)

/-- `np.hstack((row[:i], a, row[i:]))`. -/
def insertPly (row : Stack) (i : Nat) (a : Int) : Stack := row.take i ++ a :: row.drop i

/-- thin_to_thick.py 260-284: insertion of `a` (and of its mirror image) in a row of `n` plies. -/
def insertSym (sym : Bool) (n : Nat) (row : Stack) (i : Nat) (a : Int) : Stack :=
  if sym then insertPly (insertPly row i a) (n - i + 1) a else insertPly row i a

/-- thin_to_thick.py 256-284: the layout after the addition; the rows of the thinner panels get drops. -/
def addLayout (sym : Bool) (s : Step) (n : Nat) (pdl : List (Option Stack)) (i : Nat) (a : Int) :
    Py (List (Option Stack)) := do
  let row ← rowAt pdl (if s.newBoundary then s.indPanel - 1 else s.indPanel)
  let thin ← (List.range s.indPanel).mapM (rowAt pdl)
  return (thin.map (fun r => some (insertSym sym n r i (-1)))) ++
    some (insertSym sym n row i a) :: pdl.drop (s.indPanel + 1)

/-- thin_to_thick.py 238-301: one child of a node. -/
def thickChild (S : StripSetup) (s : Step) (n : Nat) (m : Cand) (ia : Nat × Int) : Py Cand := do
  let pdl ← addLayout S.c.sym s n m.pdl ia.1 ia.2
  let sp ← stripSpacing S.c S.r pdl
  return {
    pdl := pdl
    drops := []
    last := ia.1
    spacing := sp
    queue := nextQueue S.c.bal m.queue ia.2 }

/-- thin_to_thick.py 185-301: the children of a node. -/
def thickChildren (S : StripSetup) (s : Step) (n : Nat) (m : Cand) : Py (List Cand) := do
  let ps ← addPositions S.c n
  (ps.flatMap (fun i => (addAngles S.c m.queue).map (fun a => (i, a)))).mapM (thickChild S s n m)

/-- thin_to_thick.py 340-475: the values of one candidate. -/
def thickEval (S : StripSetup) (s : Step) (m : Marks) (x : Cand) : Py (Option Marks) := do
  let row ← rowAt x.pdl s.indPanel
  let ok0 ← disoOk S (sstRowToSs row)
  let ok1 ← contigOk S (sstRowToSs row)
  if ok0 && ok1 then
    let cnt0 ← rowAt m.counts (if s.newBoundary then s.indPanel - 1 else s.indPanel)
    let a ← pyGet (sstRowToSs row) x.last
    let idx ← dictGet S.c.indAngles a
    let cnt := addCount cnt0 idx (if S.c.sym then 2 else 1)
    let ok2 ← tenOk S (sstRowToSs row) cnt
    if ok2 then
      let mk ← scoreCand S m s.indPanel (sstRowToSs row) cnt
      return some mk
    else return none
  else return none

/-- One step, thin_to_thick.py 148-640; step `i` starts from `nRef + k i` plies. -/
def thickStep (S : StripSetup) (nRef : Nat) (i : Nat) (s : Step) (isLast : Bool) (nodes : List (Cand × Marks)) :
    Py (List (Cand × Marks)) := do
  let ls ← nodes.mapM (fun n => do
    let cs ← thickChildren S s (nRef + (if S.c.sym then 2 else 1) * i) n.1
    localStage S.localLimit isLast (thickEval S s n.2) cs)
  return globalStage S.globalLimit isLast ls.flatten

/-- thin_to_thick.py 81-140: the first node, from the cleaned table. -/
def thickInit (S : StripSetup) (sst : Table) (lampams : List (List ℚ)) (cnt : List ℚ) : Cand × Marks :=
  ({ pdl := (sst.take (S.r.indRef + 1)).map some ++ List.replicate (S.r.nPlies.length - (S.r.indRef + 1)) none
     drops := []
     last := 0
     spacing := 0
     queue := [] },
   { counts := (List.replicate S.r.nPlies.length none).set S.r.indRef (some cnt)
     lampams := lampams.map some
     objs := (List.replicate S.r.nPlies.length none).set S.r.indRef (some 0)
     obj := 0 })

/-- thin_to_thick.py 646-680: the result and its checks. -/
def thickFinish (S : StripSetup) (nMax : Nat) (best : Cand × Marks) :
    Py (Bool × Table × List (List ℚ) × List Stack) := do
  let sst ← (List.range best.1.pdl.length).mapM (rowAt best.1.pdl)
  let lps ← (List.range best.2.lampams.length).mapM (rowAt best.2.lampams)
  let ss := convertSstToSs sst
  let _ ← requirePy (!S.c.sym || (ss.take S.r.indRef).all (fun l => mirrored l (l.length / 2)))
    "reduced_ss not symmetric"
  let _ ← requirePy (!S.c.sym || (sst.take S.r.indRef).all (fun l => mirrored l (nMax / 2)))
    "reduced_sst not symmetric"
  let _ ← requirePy (!allDiffer lps (ss.map S.lampam))
    "\nbeam search does not return group lamination parameters matching\nthe group stacking sequences."
  let _ ← requirePy ((List.range S.r.indRef).all (fun i => (ss.getD i []).length == S.r.nPlies.getD i 0))
    "\nWrong ply counts in the laminate. This should not happen."
  return (true, sst, lps, ss)

/-- thin_to_thick.py 642-650: selection of the best node. -/
def thickSelect (S : StripSetup) (nMax : Nat) (sst : Table) (lampams : List (List ℚ)) (ss : List Stack)
    (nodes : List (Cand × Marks)) : Py (Bool × Table × List (List ℚ) × List Stack) :=
  match nodes[argMin (nodes.map (fun n => n.2.obj))]? with
  | none => .ok (false, sst, lampams, ss)
  | some best => thickFinish S nMax best

/-- thin_to_thick.py 52-682 `repair_thin_to_thick`. -/
def repairThinToThick (S : StripSetup) (lampams : List (List ℚ)) (sst : Table) (ss : List Stack) :
    Py (Bool × Table × List (List ℚ) × List Stack) := do
  let ssRef ← pyGet ss S.r.indRef
  let nMax ← pyGet S.r.nPlies (S.r.nPlies.length - 1)
  let nRef ← pyGet S.r.nPlies S.r.indRef
  let pdlRef ← pyGet sst S.r.indRef
  if S.r.thick.isEmpty then return (true, cleanTable pdlRef sst, lampams, ss)
  else
    let cnt ← countsOf S.c ssRef
    let nodes ← beamLoop (thickStep S nRef) 0 S.r.thick [thickInit S (cleanTable pdlRef sst) lampams cnt]
    thickSelect S nMax (cleanTable pdlRef sst) lampams ss nodes

end Bella
