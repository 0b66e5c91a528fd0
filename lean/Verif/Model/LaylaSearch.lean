import Verif.Model.LaylaPruning
import Verif.Model.Search
import Verif.Model.DividePanels
import Verif.Model.PlyOrder
import Verif.Model.RepairSs
/-
Model of the search of LAYLA: src/LAYLA_V02/beam_search.py, outer_step_sym.py, outer_step_asym.py, optimiser.py.

As the code stands these modules cannot be imported (`calc_penalty_ipo_oopo_ss` does not exist); the penalties are a
parameter (`factors`) here, and modelled in Model/LaylaPenalties.lean up to that function.  Lamination parameters are elements of a commutative group `V`; the objective functions, the functions
of src/CLA (not in the repository) and the repair are parameters.  The tables of the code (`ss_bot_tab`, `ss_top_tab`,
`lampam_tab`, `ply_counts_tab`, `obj_const_tab`, `ss_final`), which are always extended and cut at the same positions, are one
list of nodes.  `not_constraints` (`None` by default) is in Model/LaylaNot.lean; the counter of nodes and printing are not modelled; the counters of
designs are in Model/LaylaCounters.lean.
-/
namespace Bella

/-- A node of the search: plies of the group at the bottom and at the top, lamination parameters, ply counts, bound, and (last
level of the last group) the complete laminate after the repair. -/
structure LNode (V : Type) where
  bot : Stack
  top : Stack
  lampam : V
  counts : List ℚ
  obj : ℚ
  full : Stack

/-- What the search reads: `n` is `targets.n_plies`, `contrib level angle` the entry of `delta_lampams` for the angle,
`objective level` is `objectives` with `lampam_weightings[level]`, `factors level lastLevel children` are the factors by which
`calc_obj_multi_ss` multiplies the objectives of the children of a node for the penalties (beam_search.py 216-222, 249-250 and 327-358;
Model/LaylaPenalties.lean),
`repair` is the call of `repair_ss` at line 299 (the laminate and the success), `lampamOf` is
`calc_lampam_from_delta_lp_matrix`, `check` is `check_lay_up_rules`, `finalObj` stands for outer_step_sym.py 134-195 and outer_step_asym.py 136-195,
`closeTo` for the test of optimiser.py 161. -/
structure LaylaProblem (V : Type) where
  c : Cons
  rule : Int
  n : Nat
  contrib : Nat → Int → V
  objective : Nat → V → ℚ
  factors : Nat → Bool → List (V × List ℚ) → Py (List ℚ)
  repair : Stack → Py (Stack × Bool)
  lampamOf : Stack → V
  check : Stack → Py Unit
  finalObj : V → Stack → Py ℚ
  closeTo : V → V → Bool
  localLimit : Nat
  localLimitFinal : Nat
  globalLimit : Nat
  globalLimitP : Nat

/-- Arguments of `beam_search` for one group of plies. -/
structure LaylaGroup where
  ssBot : Stack
  ssTop : Stack
  size : Nat
  last : Bool
  middle : Nat

variable {V : Type} [AddCommGroup V]

/-- beam_search.py 178-180, 189-194 and 226-247: one child of a node. -/
def laylaChild (P : LaylaProblem V) (g : LaylaGroup) (localLevel level : Nat) (m : LNode V) (a : Int) : Py (LNode V) := do
  let j ← dictGet P.c.indAngles a
  let x ← pyGet m.counts j
  let counts := m.counts.set j (x + (if g.middle ≠ 0 ∧ localLevel = g.size - 1 then 1 / 2 else 1))
  let toTop : Bool := !P.c.sym && localLevel % 2 == 1
  return { bot := if toTop then m.bot else m.bot ++ [a], top := if toTop then a :: m.top else m.top
           lampam := m.lampam + P.contrib level a, counts := counts, obj := 0, full := [] }

/-- beam_search.py 275-288: the complete laminate of a leaf; `np.delete` out of bounds raises. -/
def laylaWhole (P : LaylaProblem V) (g : LaylaGroup) (k : LNode V) : Py Stack :=
  if P.c.sym = true then
    (let s := g.ssBot ++ k.bot ++ k.bot.reverse ++ g.ssBot.reverse
     if g.middle ≠ 0 then (if g.middle < s.length then .ok (s.eraseIdx g.middle) else .error .indexError) else .ok s)
  else .ok (g.ssBot ++ k.bot ++ k.top ++ g.ssTop)

/-- beam_search.py 275-292: the complete laminate of a leaf, with the check of its number of plies. -/
def laylaFull (P : LaylaProblem V) (g : LaylaGroup) (k : LNode V) : Py Stack := do
  let ss ← laylaWhole P g k
  if ss.length ≠ P.n then .error (.exc "This should not happen") else .ok ss

/-- beam_search.py 271-324: a leaf of the last group after the repair, with its objective without the penalties. -/
def laylaLeaf (P : LaylaProblem V) (g : LaylaGroup) (level : Nat) (k : LNode V) : Py (LNode V) := do
  let ss ← laylaFull P g k
  let r ← P.repair ss
  if r.2 then do
    P.check r.1
    return { k with lampam := P.lampamOf r.1, obj := P.objective level (P.lampamOf r.1), full := r.1 }
  else return { k with obj := 10 ^ 10, full := r.1 }

/-- beam_search.py 268-324: the children of a node after the repair at the last level of the last group. -/
def laylaLeaves (P : LaylaProblem V) (g : LaylaGroup) (localLevel level : Nat) (kids : List (LNode V)) : Py (List (LNode V)) :=
  if g.last = true ∧ localLevel = g.size - 1 then kids.mapM (laylaLeaf P g level) else .ok kids

/-- beam_search.py 372-394: local pruning of the children of a node. -/
def laylaLocalPrune (P : LaylaProblem V) (g : LaylaGroup) (localLevel : Nat) (ks : List (LNode V)) : List (LNode V) :=
  let limit := if g.last = true ∧ localLevel ≠ g.size - 1 then P.localLimitFinal else P.localLimit
  if localLevel ≠ g.size - 1 ∧ limit < ks.length then
    npDelete (worstNodes (ks.length - limit) (ks.map (fun (k : LNode V) => k.obj))) ks
  else ks

/-- beam_search.py 125-394, the body of the loop over the nodes of a level: the children that a node leaves in the tables.
The children are added in the reverse order of the orientations kept (line 187). -/
def laylaBranch (P : LaylaProblem V) (g : LaylaGroup) (localLevel level : Nat) (m : LNode V) : Py (List (LNode V)) := do
  let kept ← laylaPruning P.c.angles (laylaSimpBot P.c g.ssBot) m.bot (if P.c.sym then [] else laylaSimpTop P.c g.ssTop) m.top
    level P.n P.c P.rule
  match kept with
  | none => return []
  | some ch => do
    let kids ← ch.reverse.mapM (laylaChild P g localLevel level m)
    if kids.length = 0 then return []
    else do
      let kids := kids.map (fun (k : LNode V) => { k with obj := P.objective level k.lampam })
      let kids ← laylaLeaves P g localLevel level kids
      let fs ← P.factors level (localLevel == g.size - 1) (kids.map (fun (k : LNode V) => (k.lampam, k.counts)))
      return laylaLocalPrune P g localLevel
        (List.zipWith (fun (k : LNode V) (f : ℚ) => { k with obj := k.obj * f }) kids fs)

/-- beam_search.py 400-437: global pruning. -/
def laylaGlobalPrune (limit : Nat) (ks : List (LNode V)) : List (LNode V) :=
  if limit < ks.length then
    let marked := markBest limit (ks.map (fun (k : LNode V) => k.obj))
    npDelete ((List.range marked.length).filter (fun (i : Nat) => marked.getD i 0 != 6666)) ks
  else ks

/-- beam_search.py 119-437: one level of the search. -/
def laylaLevel (P : LaylaProblem V) (g : LaylaGroup) (localLevel level : Nat) (ns : List (LNode V)) : Py (List (LNode V)) := do
  let kids ← ns.mapM (laylaBranch P g localLevel level)
  let ks := kids.flatten
  if ks.length = 0 then .error (.exc "Infeasible beam-search, increase the branching limits")
  else if g.last = true ∧ localLevel + 2 = g.size then return laylaGlobalPrune P.globalLimitP ks
  else if localLevel ≠ g.size - 1 then return laylaGlobalPrune P.globalLimit ks
  else return ks

/-- beam_search.py 119-437 over the levels `levels[k], levels[k+1], ...`. -/
def laylaLevels (P : LaylaProblem V) (g : LaylaGroup) : List Nat → Nat → List (LNode V) → Py (List (LNode V))
  | [], _, ns => .ok ns
  | level :: ls, k, ns => do
    let ns ← laylaLevel P g k level ns
    laylaLevels P g ls (k + 1) ns

/-- beam_search.py 92-476 `beam_search`: the node returned. -/
def laylaBeam (P : LaylaProblem V) (g : LaylaGroup) (levels : List Nat) (lampam : V) (counts : List ℚ) : Py (LNode V) := do
  let ns ← laylaLevels P g levels 0 [{ bot := [], top := [], lampam := lampam, counts := counts, obj := 0, full := [] }]
  let k ← pyGet ns (argMin (ns.map (fun (k : LNode V) => k.obj)))
  if k.obj > 99 / 100 * 10 ^ 10 then .error (.exc "No successfull repair during beam search, increase the branching limits")
  else return k

/-- outer_step_sym.py 63-132 and outer_step_asym.py 58-134: the groups one after the other; `lampam` is `lampam_current`, the
groups come with their assumed lamination parameters. -/
def laylaGroups (P : LaylaProblem V) : List (List Nat × V) → Stack → Stack → V → List ℚ → Py (LNode V)
  | [], _, _, _, _ => .error .unbound
  | [(levels, assumed)], bot, top, lampam, counts =>
    laylaBeam P { ssBot := bot, ssTop := top, size := levels.length, last := true, middle := if P.c.sym = true ∧ P.n % 2 = 1 then (P.n + 1) / 2 else 0 }
      levels (lampam - assumed) counts
  | (levels, assumed) :: g :: gs, bot, top, lampam, counts => do
    let k ← laylaBeam P { ssBot := bot, ssTop := top, size := levels.length, last := false, middle := 0 }
      levels (lampam - assumed) counts
    laylaGroups P (g :: gs) (bot ++ k.bot) (k.top ++ top) k.lampam k.counts

/-- Result of an outer step. -/
structure LaylaStep (V : Type) where
  ss : Stack
  lampam : V
  obj : ℚ

/-- outer_step_sym.py 22-201 `outer_step_sym`, outer_step_asym.py 21-201 `outer_step_asym`. -/
def laylaOuterStep (P : LaylaProblem V) (groups : List (List Nat × V)) : Py (LaylaStep V) := do
  let k ← laylaGroups P groups [] [] ((groups.map Prod.snd).sum) (List.replicate P.c.nAngles 0)
  let o ← P.finalObj k.lampam k.full
  return { ss := k.full, lampam := k.lampam, obj := o }

/-- optimiser.py 70-80 and 187-204: the levels of the groups of outer step `step`.  The code keeps the division when the largest group size is
the same as for the previous step; dividing again gives the same groups. -/
def laylaDivision (P : LaylaProblem V) (gmin : Int) (gmax : List Int) (step : Nat) : Py (List (List Nat)) := do
  let m ← pyGet gmax step
  let d ← if P.c.sym then divideLaminateSym P.n gmin m else divideLaminateAsym P.n gmin m
  calcLevels (calcPlyOrder P.c.sym P.n) (d.1.map Int.toNat) 0

/-- optimiser.py 206-214: the assumed lamination parameters of each group, from the laminate of the previous step. -/
def laylaAssumed (P : LaylaProblem V) (ss : Stack) (levels : List (List Nat)) : Py (List (List Nat × V)) :=
  levels.mapM (fun (g : List Nat) => do
    let vs ← g.mapM (fun (l : Nat) => do
      let a ← pyGet ss l
      return P.contrib l a)
    return (g, vs.sum))

/-- optimiser.py 124-214: the outer steps from number `step` on; the results of the steps performed. -/
def laylaLoop (P : LaylaProblem V) (gmin : Int) (gmax : List Int) : Nat → Nat → Option (LaylaStep V) → List (List Nat × V) →
    Py (List (LaylaStep V))
  | 0, _, _, _ => .ok []
  | k + 1, step, prev, groups => do
    let r ← laylaOuterStep P groups
    P.check r.ss
    (if P.closeTo r.lampam (P.lampamOf r.ss) = true then Except.ok () else .error (.exc "Lamination parameters not matching lay-up"))
    (if r.ss.length ≠ P.n then Except.error (.exc "Stacking sequence with incorrect ply count") else .ok ())
    if r.obj < 1 / 10 ^ 10 ∨ prev.map (fun (q : LaylaStep V) => q.ss) = some r.ss then return [r]
    else if k = 0 then return [r]
    else do
      let levels ← laylaDivision P gmin gmax (step + 1)
      let groups ← laylaAssumed P r.ss levels
      let rest ← laylaLoop P gmin gmax k (step + 1) (some r) groups
      return r :: rest

/-- Result of LAYLA: design, lamination parameters, objective, number of outer steps performed and number of the outer step that
found the design. -/
structure LaylaResult (V : Type) where
  ss : Stack
  lampam : V
  obj : ℚ
  performed : Nat
  best : Nat

/-- optimiser.py 37-228 `LAYLA_optimiser` with `nOuter` outer steps. -/
def laylaOptimiser (P : LaylaProblem V) (nOuter : Nat) (gmin : Int) (gmax : List Int) : Py (LaylaResult V) := do
  let levels ← laylaDivision P gmin gmax 0
  let rs ← laylaLoop P gmin gmax nOuter 0 none (levels.map (fun (g : List Nat) => (g, (0 : V))))
  if rs.length = 0 then .error (.exc "No successful repair during lay-up optimisation")
  else do
    let i := argMin (rs.map (fun (r : LaylaStep V) => r.obj))
    let r ← pyGet rs i
    return { ss := r.ss, lampam := r.lampam, obj := r.obj, performed := rs.length, best := i + 1 }

/-- The call of `repair_ss` at beam_search.py 299-300: the fifth argument, `obj_no_constraints`, is `True`.  A repair that does not
end gives no result. -/
def laylaRepair (R : RepairSetup) (ss : Stack) : Py (Stack × Bool) :=
  match repairSs R (some 1) ss with
  | none => .error (.exc "does not end")
  | some (.error e) => .error e
  | some (.ok r) => .ok (r.1, r.2.1)

end Bella
