import Verif.Model.OnePdl
/-
Model of the counters of `BELLA_ResultsOnePdl` (src/BELLA/results.py 155-180), filled by `BELLA_optimiser_one_pdl`
(src/BELLA/optimiser_with_one_pdl.py): the number of candidates evaluated by the beam search and the numbers of designs
that pass the steps of the repair.
-/
namespace Bella

/-- results.py 176-180 and optimiser_with_one_pdl.py 100: the counters. -/
structure Counters where
  lastLevel : Nat
  afterRef : Nat
  afterThick : Nat
  afterThin : Nat
  unique : Nat
  calls : Nat
  deriving DecidableEq, Repr

/-- optimiser_with_one_pdl.py 412-428: the counters after one more design, repaired with the outcome (success, step). -/
def countDesign (k : Counters) (d : Design) : Counters :=
  let k := { k with lastLevel := k.lastLevel + 1 }
  if d.success then
    { k with afterRef := k.afterRef + 1, afterThick := k.afterThick + 1, afterThin := k.afterThin + 1 }
  else if d.step = 1 then k
  else if d.step = 2 then { k with afterRef := k.afterRef + 1 }
  else { k with afterRef := k.afterRef + 1, afterThick := k.afterThick + 1 }

/-- optimiser_with_one_pdl.py 505-528: `np.unique(sst_final, axis=0).shape[0]`, computed only with `save_success_rate`; the
designs of objective 1e10 or more are taken away before, unless there is no other. -/
def uniqueTables (save : Bool) (ds : List Design) : Nat :=
  let kept := ds.filter (fun (d : Design) => decide (d.obj < failObj))
  if save then ((if kept.length ≠ 0 then kept else ds).map (fun (d : Design) => d.sst)).dedup.length else 0

section
variable {V : Type} [Zero V] [Add V]

/-- optimiser_with_one_pdl.py 140-166 and 200-211: the candidates evaluated when the first node is branched. -/
def branchCalls (P : Problem V) (level : Nat) (t : Tabs V) : Py Nat := do
  let bot ← pyGet t.bots 0
  let top ← pyGet t.tops 0
  let guideBot ← pyGet bot P.thick
  let guideTop ← pyGet top P.thick
  let ss ← pruning P.c.angles guideBot guideTop level P.indices.length P.c P.rule P.hasMiddle
  return (ss.getD []).length

/-- optimiser_with_one_pdl.py 117-329: the candidates evaluated by `for node in range(n_nodes)`. -/
def nodesCalls (P : Problem V) (level : Nat) (last : Bool) : Nat → Tabs V → Py Nat
  | 0, _ => .ok 0
  | k + 1, t => do
    let n ← branchCalls P level t
    let t' ← branchNode P level last t
    let m ← nodesCalls P level last k t'
    return n + m

/-- optimiser_with_one_pdl.py 110-367: the candidates evaluated at the given levels. -/
def levelsCalls (P : Problem V) : List Nat → Tabs V → Py Nat
  | [], _ => .ok 0
  | level :: ls, t => do
    let n ← nodesCalls P level (decide (P.indices.getLast? = some level)) t.objs.length t
    let t' ← searchLevel P level t
    let m ← levelsCalls P ls t'
    return n + m

/-- optimiser_with_one_pdl.py 100, 210: `n_obj_func_calls` after the beam search. -/
def searchCalls (P : Problem V) : Py Nat := levelsCalls P P.indices (initTabs P)

/-- optimiser_with_one_pdl.py 33-671: the counters of the results (`none` if no results are returned). -/
def onePdlCounters (P : Problem V) (O : OneSetup) (save : Bool) (nPanels w : Nat) : Option (Py (Option Counters)) :=
  match beamSearch P, searchCalls P with
  | .error e, _ => some (.error e)
  | _, .error e => some (.error e)
  | .ok t, .ok n =>
    match repairNodes O P.pdl w (t.bots.zip t.tops) with
    | none => none
    | some (.error e) => some (.error e)
    | some (.ok ds) =>
      match finishOne O save nPanels ds with
      | .error e => some (.error e)
      | .ok none => some (.ok none)
      | .ok (some _) => some (.ok (some
          { ds.foldl countDesign ⟨0, 0, 0, 0, 0, n⟩ with unique := uniqueTables save ds }))

end

end Bella
