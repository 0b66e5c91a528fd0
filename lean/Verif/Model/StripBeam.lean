import Verif.Model.Search
import Verif.Model.Objectives
import Verif.Model.Guidelines
import Verif.Model.PdlTools
/-
The parts common to the beam searches of src/RELAY/thick_to_thin.py and src/RELAY/thin_to_thick.py, which redesign the
ply drops of the thinner panels and the added plies of the thicker panels of a blending strip.

The parallel Python lists describing the nodes are grouped in two structures: `Cand` for those that hold the layouts
(`pdls_tab`, `all_pdl_indices_tab`, `last_pdl_index_tab`, `penalty_spacing_tab`, `angle_queue_tab`) and `Marks` for
those that hold the values computed from them (`n_plies_per_angle_tab`, `lampam_tab`, `obj_no_constraints_tab`,
`obj_constraints_tab`); the code fills the lists of the two kinds in opposite orders.  The disorientation penalties of
the thick-to-thin repair only enter the objective with the coefficient 0 and are left out.  `calc_lampam` (src/CLA,
not in the repository) and the distance of the Abdalla rule are parameters.
-/
namespace Bella

/-- The data of the repair of a blending strip (multipanel.reduced, constraints and parameters). -/
structure StripSetup where
  c : Cons
  /-- `multipanel.reduced` -/
  r : Reduced
  /-- `panels[i].lampam_target`, `panels[i].lampam_weightings` -/
  targets : List (List ℚ)
  weights : List (List ℚ)
  /-- `actual_panel_weightings` -/
  panelWeights : List ℚ
  /-- `calc_lampam` of one laminate -/
  lampam : Stack → List ℚ
  /-- `calc_distance_Abdalla` -/
  dist : List ℚ → ℚ
  /-- `local_node_limit2`, `global_node_limit2` -/
  localLimit : Nat
  globalLimit : Nat

/-- The layout of a node: one row per panel, `None` for the panels not yet designed; the positions of all the ply
drops, the last one, the spacing penalty and the angle waiting for its balancing ply. -/
structure Cand where
  pdl : List (Option Stack)
  drops : List Nat
  last : Nat
  spacing : ℚ
  queue : List Int

/-- The values attached to a node: ply counts per direction, lamination parameters and objective of each panel (`None`
if not designed), and the objective of the strip. -/
structure Marks where
  counts : List (Option (List ℚ))
  lampams : List (Option (List ℚ))
  objs : List (Option ℚ)
  obj : ℚ

/-- `pdl[i]` for a panel whose layout is used as an array (an entry `None` raises). -/
def rowAt {α : Type} (pdl : List (Option α)) (i : Nat) : Py α :=
  match pdl[i]? with
  | some (some r) => .ok r
  | some none => .error .typeError
  | none => .error .indexError

/-- One boundary in ply_drop_spacing.py 53-82. -/
def stripSpacing1 (c : Cons) (r : Reduced) (pdl : List (Option Stack)) (b : Nat × Nat) : Py ℚ :=
  match pdl[b.1]?, pdl[b.2]? with
  | some (some l1), some (some l2) =>
    if l1.length = 1 ∨ l2.length = 1 then .ok 0
    else do
      let w ← dictGet r.boundaryWeights b
      let p ← calcPenaltySpacing1ss (spacingLayout l1 l2) c.minDrop
      return w * p
  | _, _ => .ok 0

/-- ply_drop_spacing.py 40-84 `calc_penalty_spacing` with `on_blending_strip=True`; panels whose layout is `None` are
skipped. -/
def stripSpacing (c : Cons) (r : Reduced) (pdl : List (Option Stack)) : Py ℚ :=
  if c.pdlSpacing then do
    let ps ← r.boundaries.mapM (stripSpacing1 c r pdl)
    return ps.sum
  else .ok 0

/-! ### The prunings -/

/-- Positions of the smallest entries of a list, `np.where(tab == min(tab))[0]`. -/
def minPositions (vals : List ℚ) : List Nat :=
  (List.range vals.length).filter (fun i => vals.getD i 0 == vals.getD (argMin vals) 0)

/-- thick_to_thin.py 260-267, 522-530, thin_to_thick.py 310-317: the positions of the smallest entries are kept and
overwritten by 1000 until the limit is reached; each pass keeps at least one, so `limit` passes suffice. -/
def tiedLoop (limit : Nat) : Nat → List ℚ → List Nat → List Nat
  | 0, _, keep => keep
  | k + 1, vals, keep =>
    if keep.length < limit then
      tiedLoop limit k ((minPositions vals).foldl (fun v i => v.set i 1000) vals) (keep ++ minPositions vals)
    else keep

/-- thick_to_thin.py 429-434, 568-573: one at a time. -/
def bestLoop : Nat → List ℚ → List Nat
  | 0, _ => []
  | k + 1, vals => argMin vals :: bestLoop k (vals.set (argMin vals) 1000)

/-- `[tab[index] for index in indices_to_keep]`. -/
def pick {α : Type} (l : List α) (idx : List Nat) : List α := idx.filterMap (fun i => l[i]?)

/-- Pruning for the ply drop spacing, thick_to_thin.py 254-279. -/
def pruneTied {α : Type} (limit : Nat) (f : α → ℚ) (l : List α) : List α :=
  if l.length > limit then pick l ((tiedLoop limit limit (l.map f) []).insertionSort (· ≤ ·)) else l

/-- Pruning for the stiffness, thick_to_thin.py 420-470. -/
def pruneBest {α : Type} (limit : Nat) (f : α → ℚ) (l : List α) : List α :=
  if l.length > limit then pick l ((bestLoop limit (l.map f)).insertionSort (· ≤ ·)) else l

/-! ### Evaluation of the candidates -/

/-- thick_to_thin.py 356-381, thin_to_thick.py 404-431: the test of the 10% rule. -/
def tenOk (S : StripSetup) (ss : Stack) (cnt : List ℚ) : Py Bool :=
  if S.c.rule10 then
    if S.c.rule10Abdalla then .ok (S.dist (S.lampam ss) == 0)
    else do
      let p ← calcPenalty10Pc S.c cnt 1
      return p == 0
  else .ok true

/-- `calc_penalty_contig_ss(child_ss, constraints) == 0`, thick_to_thin.py 332-344. -/
def contigOk (S : StripSetup) (ss : Stack) : Py Bool :=
  if S.c.contig then do
    let p ← calcPenaltyContigSs ss S.c.nContig S.c.damTol S.c.damTolAttr
    return p == 0
  else .ok true

/-- `calc_n_penalty_diso_ss(child_ss, constraints) == 0`, thin_to_thick.py 348-361. -/
def disoOk (S : StripSetup) (ss : Stack) : Py Bool :=
  if S.c.diso then do
    let p ← calcNPenaltyDisoSs ss S.c.deltaAngle S.c.damTol S.c.damTolAttr
    return p == 0
  else .ok true

/-- thick_to_thin.py 383-412, thin_to_thick.py 435-462: objective of the panel `ip` and of the strip. -/
def scoreCand (S : StripSetup) (m : Marks) (ip : Nat) (ss : Stack) (cnt : List ℚ) : Py Marks := do
  let t ← pyGet S.targets ip
  let w ← pyGet S.weights ip
  let o ← objOnePanel (S.lampam ss) t w
  let tot ← objMultiPanelNones S.panelWeights (m.objs.set ip (some o)) [] []
  return {
    counts := m.counts.set ip (some cnt)
    lampams := m.lampams.set ip (some (S.lampam ss))
    objs := m.objs.set ip (some o)
    obj := tot }

/-- `n_plies_per_angle[index] += k`. -/
def addCount (cnt : List ℚ) (i : Nat) (k : ℚ) : List ℚ := cnt.set i (cnt.getD i 0 + k)

/-- The loop `for ind_pd in range(len(tab_child_pdl))[::-1]`, thick_to_thin.py 295-424: the surviving candidates with
their values, in the order of the loop. -/
def evalAll (eval : Cand → Py (Option Marks)) : List Cand → Py (List (Cand × Marks))
  | [] => .ok []
  | x :: t => do
    let m ← eval x
    let rest ← evalAll eval t
    match m with
    | none => return rest
    | some m => return (x, m) :: rest

/-- thick_to_thin.py 252-500: the children of one node.  The loop runs backwards, so that the values come in reverse
order, whereas the deletions leave the layouts in their order. -/
def localStage (limit : Nat) (isLast : Bool) (eval : Cand → Py (Option Marks)) (children : List Cand) :
    Py (List (Cand × Marks)) := do
  let evs ← evalAll eval (pruneTied limit Cand.spacing children).reverse
  let nodes := ((evs.map Prod.fst).reverse).zip (evs.map Prod.snd)
  return if isLast then nodes else pruneBest limit (fun n => n.2.obj) nodes

/-- The main loop over the steps, thick_to_thin.py 141-600; `step i s last nodes`. -/
def beamLoop (step : Nat → Step → Bool → List (Cand × Marks) → Py (List (Cand × Marks))) :
    Nat → List Step → List (Cand × Marks) → Py (List (Cand × Marks))
  | _, [], nodes => .ok nodes
  | i, s :: rest, nodes =>
    if nodes.isEmpty then .ok []
    else do
      let nodes' ← step i s rest.isEmpty nodes
      beamLoop step (i + 1) rest nodes'

/-- thick_to_thin.py 514-600, thin_to_thick.py 566-640: the global prunings. -/
def globalStage (limit : Nat) (isLast : Bool) (nodes : List (Cand × Marks)) : List (Cand × Marks) :=
  if isLast then nodes
  else pruneBest limit (fun n => n.2.obj) (pruneTied limit (fun n => n.1.spacing) nodes)

/-- The number of plies of a laminate in each direction, thick_to_thin.py 104-112. -/
def countsOf (c : Cons) (ss : Stack) : Py (List ℚ) :=
  ss.foldlM (init := List.replicate c.nAngles (0 : ℚ)) (fun acc a => do
    let i ← dictGet c.indAngles a
    return addCount acc i 1)

/-- thick_to_thin.py 620-629: `elem[ind] != elem[- ind - 1]` for `ind < n`. -/
def mirrored (l : Stack) (n : Nat) : Bool :=
  (List.range n).all (fun i => l.getD i 0 == l.getD (l.length - 1 - i) 0)

/-- The check of the lamination parameters, thick_to_thin.py 632-638, `not abs(a - b).all() < 1e-13`: it raises only
if all the entries differ. -/
def allDiffer (a b : List (List ℚ)) : Bool :=
  (a.zip b).all (fun p => (p.1.zip p.2).all (fun q => q.1 != q.2))

end Bella
