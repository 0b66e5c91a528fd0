import Verif.Model.LaylaSearch
/-
Model of the counters of the results of LAYLA: `n_designs_last_level`, `n_designs_repaired` and `n_designs_repaired_unique` of
`beamsearchResults` (src/LAYLA_V02/beam_search.py 490-510), of the results of an outer step (outer_step_sym.py and outer_step_asym.py
217-223) and the tables of `LAYLA_Results` (src/LAYLA_V02/results.py 37-46).  The counter `n_nodes`, which the search does not pass on,
is not modelled.
-/
namespace Bella

/-- beam_search.py 496-500, outer_step_sym.py 217-223, outer_step_asym.py 217-223: the counters. -/
structure LaylaCounters where
  lastLevel : Nat
  repaired : Nat
  unique : Nat
  deriving DecidableEq, Repr

variable {V : Type} [AddCommGroup V]

/-- beam_search.py 295-307: how often `n_designs_repaired` is increased for these children. -/
def laylaSuccesses (P : LaylaProblem V) (g : LaylaGroup) : List (LNode V) → Py Nat
  | [] => .ok 0
  | k :: ks => do
    let ss ← laylaFull P g k
    let r ← P.repair ss
    let n ← laylaSuccesses P g ks
    return (if r.2 then n + 1 else n)

/-- beam_search.py 125-324: the increases of `n_designs_last_level` and of `n_designs_repaired` when a node is branched. -/
def laylaBranchDesigns (P : LaylaProblem V) (g : LaylaGroup) (localLevel level : Nat) (m : LNode V) : Py (Nat × Nat) := do
  let kept ← laylaPruning P.c.angles (laylaSimpBot P.c g.ssBot) m.bot (if P.c.sym then [] else laylaSimpTop P.c g.ssTop) m.top
    level P.n P.c P.rule
  match kept with
  | none => return (0, 0)
  | some ch => do
    let kids ← ch.reverse.mapM (laylaChild P g localLevel level m)
    if g.last = true ∧ localLevel = g.size - 1 then do
      let n ← laylaSuccesses P g kids
      return (kids.length, n)
    else return (0, 0)

/-- beam_search.py 119-394: the increases over the nodes of a level. -/
def laylaLevelDesigns (P : LaylaProblem V) (g : LaylaGroup) (localLevel level : Nat) : List (LNode V) → Py (Nat × Nat)
  | [] => .ok (0, 0)
  | m :: ns => do
    let a ← laylaBranchDesigns P g localLevel level m
    let b ← laylaLevelDesigns P g localLevel level ns
    return (a.1 + b.1, a.2 + b.2)

/-- beam_search.py 119-437: the increases over the levels `levels[k], levels[k+1], ...`. -/
def laylaLevelsDesigns (P : LaylaProblem V) (g : LaylaGroup) : List Nat → Nat → List (LNode V) → Py (Nat × Nat)
  | [], _, _ => .ok (0, 0)
  | level :: ls, k, ns => do
    let a ← laylaLevelDesigns P g k level ns
    let ns ← laylaLevel P g k level ns
    let b ← laylaLevelsDesigns P g ls (k + 1) ns
    return (a.1 + b.1, a.2 + b.2)

/-- beam_search.py 442-450: the number of distinct laminates of objective below 1e10. -/
def laylaUnique (ns : List (LNode V)) : Nat :=
  ((ns.filter (fun (k : LNode V) => decide (k.obj < 10 ^ 10))).map (fun (k : LNode V) => k.full)).dedup.length

/-- beam_search.py 28-476 `beam_search`: the counters of the results of a group that is the last one. -/
def laylaBeamCounters (P : LaylaProblem V) (g : LaylaGroup) (levels : List Nat) (lampam : V) (counts : List ℚ) : Py LaylaCounters := do
  let _ ← laylaBeam P g levels lampam counts
  let root : LNode V := { bot := [], top := [], lampam := lampam, counts := counts, obj := 0, full := [] }
  let d ← laylaLevelsDesigns P g levels 0 [root]
  let ns ← laylaLevels P g levels 0 [root]
  return { lastLevel := d.1, repaired := d.2, unique := laylaUnique ns }

/-- outer_step_sym.py 63-132 and outer_step_asym.py 58-134: the counters kept are those of the search of the last group
(outer_step_sym.py 128-131, outer_step_asym.py 130-133). -/
def laylaGroupsCounters (P : LaylaProblem V) : List (List Nat × V) → Stack → Stack → V → List ℚ → Py LaylaCounters
  | [], _, _, _, _ => .error .unbound
  | [(levels, assumed)], bot, top, lampam, counts =>
    laylaBeamCounters P { ssBot := bot, ssTop := top, size := levels.length, last := true, middle := if P.c.sym = true ∧ P.n % 2 = 1 then (P.n + 1) / 2 else 0 }
      levels (lampam - assumed) counts
  | (levels, assumed) :: g :: gs, bot, top, lampam, counts => do
    let k ← laylaBeam P { ssBot := bot, ssTop := top, size := levels.length, last := false, middle := 0 }
      levels (lampam - assumed) counts
    laylaGroupsCounters P (g :: gs) (bot ++ k.bot) (k.top ++ top) k.lampam k.counts

/-- outer_step_sym.py 22-201, outer_step_asym.py 21-201: the counters of the result of an outer step. -/
def laylaStepCounters (P : LaylaProblem V) (groups : List (List Nat × V)) : Py LaylaCounters := do
  let _ ← laylaOuterStep P groups
  laylaGroupsCounters P groups [] [] ((groups.map Prod.snd).sum) (List.replicate P.c.nAngles 0)

/-- optimiser.py 124-214: the counters written in the tables (lines 171-176) by the outer steps performed from number `step` on. -/
def laylaLoopCounters (P : LaylaProblem V) (gmin : Int) (gmax : List Int) : Nat → Nat → Option (LaylaStep V) → List (List Nat × V) →
    Py (List LaylaCounters)
  | 0, _, _, _ => .ok []
  | k + 1, step, prev, groups => do
    let r ← laylaOuterStep P groups
    let n ← laylaStepCounters P groups
    if r.obj < 1 / 10 ^ 10 ∨ prev.map (fun (q : LaylaStep V) => q.ss) = some r.ss then return [n]
    else if k = 0 then return [n]
    else do
      let levels ← laylaDivision P gmin gmax (step + 1)
      let groups ← laylaAssumed P r.ss levels
      let rest ← laylaLoopCounters P gmin gmax k (step + 1) (some r) groups
      return n :: rest

/-- optimiser.py 37-228 and results.py 37-46: the tables of the counters in the results, `none` (NaN) for the outer steps that were not
performed. -/
def laylaTables (P : LaylaProblem V) (nOuter : Nat) (gmin : Int) (gmax : List Int) : Py (List (Option LaylaCounters)) := do
  let _ ← laylaOptimiser P nOuter gmin gmax
  let levels ← laylaDivision P gmin gmax 0
  let ns ← laylaLoopCounters P gmin gmax nOuter 0 none (levels.map (fun (g : List Nat) => (g, (0 : V))))
  return ns.map some ++ List.replicate (nOuter - ns.length) none

end Bella
