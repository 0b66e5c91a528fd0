import Verif.Model.Pruning
import Mathlib.Data.List.Sort
/-
Models of the beam search of src/BELLA/optimiser_with_one_pdl.py, of the assembly and selection of
the designs, and of the outer loop of src/BELLA/optimiser.py.

Lamination parameters are elements of an arbitrary type `V` with an addition: the search only adds
the contributions of the plies.  The objective functions are parameters (they are modelled in
Model/Objectives).
-/
namespace Bella

/-- `np.argmin`: position of the first smallest entry (`0` for an empty list, where numpy raises). -/
def argMin : List ℚ → Nat
  | [] => 0
  | [_] => 0
  | x :: y :: t =>
    let i := argMin (y :: t)
    if x ≤ (y :: t).getD i 0 then 0 else i + 1

/-- `np.argmax`. -/
def argMax (l : List ℚ) : Nat := argMin (l.map (fun x => -x))

/-- optimiser_with_one_pdl.py 312-319: positions (in the last `n_local_nodes` entries) of the worst
`k` nodes, found one after the other, each being overwritten by -6666. -/
def worstNodes : Nat → List ℚ → List Nat
  | 0, _ => []
  | k + 1, l => argMax l :: worstNodes k (l.set (argMax l) (-6666))

/-- optimiser_with_one_pdl.py 349-353: the best `k` nodes are overwritten by 6666 one after the
other. -/
def markBest : Nat → List ℚ → List ℚ
  | 0, l => l
  | k + 1, l => markBest k (l.set (argMin l) 6666)

/-- `for ind_del in sorted(to_del, reverse=True): del tab[ind_del]` (lines 319-322, 357-360).
A position out of range raises in the code; deleting nothing here. -/
def delSorted {α : Type} (toDel : List Nat) (tab : List α) : List α :=
  (toDel.insertionSort (fun a b => b ≤ a)).foldl (fun t i => t.eraseIdx i) tab

/-- `np.delete(tab, np.s_[to_del], axis=0)`: the set of positions is deleted. -/
def npDelete {α : Type} (toDel : List Nat) (tab : List α) : List α :=
  ((tab.zipIdx).filter (fun p => ! toDel.contains p.2)).map Prod.fst

/-- The tables of the active nodes, optimiser_with_one_pdl.py 81-101.  For symmetric laminates
`ss_top_tab` does not exist in the code; here it then holds empty stacks that are never read. -/
structure Tabs (V : Type) where
  bots : List (List Stack)
  tops : List (List Stack)
  lampams : List (List V)
  counts : List (List (List ℚ))
  objs : List ℚ
  objsNo : List (List ℚ)

/-- Inputs of the beam search: `contrib panel angle level` is `lampam_matrix`, `objPanels level` is
`calc_obj_each_panel` with `lampam_weightings[level]`, `objMp` is `calc_obj_multi_panel` with the
penalties all 0 (lines 264-295). -/
structure Problem (V : Type) where
  c : Cons
  rule : Int
  nPanels : Nat
  indices : List Nat
  pdl : List (List Int)
  thick : Nat
  hasMiddle : Bool
  contrib : Nat → Int → Nat → V
  objPanels : Nat → List V → Py (List ℚ)
  objMp : List ℚ → Py ℚ
  localLimit : Nat
  localLimitFinal : Nat
  globalLimit : Nat
  globalLimitFinal : Nat

variable {V : Type} [Zero V] [Add V]

/-- optimiser_with_one_pdl.py 81-101: the tables at the root of the search tree. -/
def initTabs (P : Problem V) : Tabs V where
  bots := [List.replicate P.nPanels []]
  tops := [List.replicate P.nPanels []]
  lampams := [List.replicate P.nPanels 0]
  counts := [List.replicate P.nPanels (List.replicate P.c.nAngles 0)]
  objs := [0]
  objsNo := [List.replicate P.nPanels 0]

/-- `pdl[ind_panel, level] >= 0`. -/
def covers (pdl : List (List Int)) (level ip : Nat) : Py Bool := do
  let row ← pyGet pdl ip
  let x ← pyGet row level
  pure (decide (x ≥ 0))

/-- Lines 176-193: ply counts of one child. -/
def childCounts (P : Problem V) (level : Nat) (last : Bool) (mother : List (List ℚ)) (a : Int) :
    Py (List (List ℚ)) :=
  (List.range P.nPanels).mapM (fun ip => do
    let row ← pyGet mother ip
    let cov ← covers P.pdl level ip
    if cov then do
      let j ← dictGet P.c.indAngles a
      let x ← pyGet row j
      pure (row.set j (x + (if last = true ∧ P.hasMiddle = true then 1 / 2 else 1)))
    else pure row)

/-- Lines 200-211: lamination parameters of one child. -/
def childLampam (P : Problem V) (level : Nat) (mother : List V) (a : Int) : Py (List V) :=
  (List.range P.nPanels).mapM (fun ip => do
    let v ← pyGet mother ip
    pure (v + P.contrib ip a level))

/-- Lines 217-222 and 230-234: a ply added after the plies of each panel it covers. -/
def appendPly (P : Problem V) (level : Nat) (mother : List Stack) (a : Int) : Py (List Stack) :=
  (List.range P.nPanels).mapM (fun ip => do
    let s ← pyGet mother ip
    let cov ← covers P.pdl level ip
    pure (if cov then s ++ [a] else s))

/-- Lines 235-239: a ply added before the plies of each panel it covers. -/
def prependPly (P : Problem V) (level : Nat) (mother : List Stack) (a : Int) : Py (List Stack) :=
  (List.range P.nPanels).mapM (fun ip => do
    let s ← pyGet mother ip
    let cov ← covers P.pdl level ip
    pure (if cov then a :: s else s))

/-- Lines 215-242: the bottom and top parts of one child. -/
def childStacks (P : Problem V) (level : Nat) (bot top : List Stack) (a : Int) :
    Py (List Stack × List Stack) :=
  if P.c.sym = true ∨ level % 2 = 0 then do
    let b ← appendPly P level bot a
    pure (b, top)
  else do
    let t ← prependPly P level top a
    pure (bot, t)

/-- Lines 250-293: objectives of one child. -/
def childObj (P : Problem V) (level : Nat) (lampam : List V) : Py (List ℚ × ℚ) := do
  let o ← P.objPanels level lampam
  let q ← P.objMp o
  pure (o, q)

/-- Lines 304-329: local pruning of the `nLocal` nodes just added. -/
def localPrune (P : Problem V) (level : Nat) (last : Bool) (nLocal : Nat) (t : Tabs V) : Tabs V :=
  let limit := if last then P.localLimitFinal else P.localLimit
  if level ≠ P.indices.length - 1 ∧ limit < nLocal then
    let toDel := (worstNodes (nLocal - limit) (lastK t.objs nLocal)).map
      (fun i => i + t.objs.length - nLocal)
    { bots := delSorted toDel t.bots
      tops := delSorted toDel t.tops
      lampams := npDelete toDel t.lampams
      counts := npDelete toDel t.counts
      objs := npDelete toDel t.objs
      objsNo := npDelete toDel t.objsNo }
  else t

/-- Lines 345-367: global pruning. -/
def globalPrune (limit : Nat) (t : Tabs V) : Tabs V :=
  if limit < t.objs.length then
    let marked := markBest limit t.objs
    let toDel := (List.range marked.length).filter (fun i => marked.getD i 0 != 6666)
    { bots := delSorted toDel t.bots
      tops := delSorted toDel t.tops
      lampams := npDelete toDel t.lampams
      counts := npDelete toDel t.counts
      objs := npDelete toDel t.objs
      objsNo := npDelete toDel t.objsNo }
  else t

/-- Lines 119-329, the body of `for node in range(n_nodes)`: the first node is taken off the tables,
its children are added at the end. -/
def branchNode (P : Problem V) (level : Nat) (last : Bool) (t : Tabs V) : Py (Tabs V) := do
  let bot ← pyGet t.bots 0
  let top ← pyGet t.tops 0
  let lampam ← pyGet t.lampams 0
  let count ← pyGet t.counts 0
  let guideBot ← pyGet bot P.thick
  let guideTop ← pyGet top P.thick
  let ss ← pruning P.c.angles guideBot guideTop level P.indices.length P.c P.rule P.hasMiddle
  let rest : Tabs V :=
    { bots := t.bots.tail, tops := t.tops.tail, lampams := t.lampams.tail,
      counts := t.counts.tail, objs := t.objs.tail, objsNo := t.objsNo.tail }
  match ss with
  | none => pure rest
  | some ss => do
    let counts ← ss.mapM (childCounts P level last count)
    let lampams ← ss.mapM (childLampam P level lampam)
    let layups ← ss.mapM (childStacks P level bot top)
    let objs ← lampams.mapM (childObj P level)
    pure (localPrune P level last ss.length
      { bots := rest.bots ++ layups.map Prod.fst
        tops := rest.tops ++ layups.map Prod.snd
        lampams := rest.lampams ++ lampams
        counts := rest.counts ++ counts
        objs := rest.objs ++ objs.map Prod.snd
        objsNo := rest.objsNo ++ objs.map Prod.fst })

/-- Lines 117-329: `for node in range(n_nodes)`. -/
def branchNodes (P : Problem V) (level : Nat) (last : Bool) : Nat → Tabs V → Py (Tabs V)
  | 0, t => .ok t
  | k + 1, t => do
    let t' ← branchNode P level last t
    branchNodes P level last k t'

/-- Lines 110-367, one level of the search. -/
def searchLevel (P : Problem V) (level : Nat) (t : Tabs V) : Py (Tabs V) := do
  let last : Bool := decide (P.indices.getLast? = some level)
  let t' ← branchNodes P level last t.objs.length t
  if t'.objs.length = 0 then .error (.exc "beam search with no solutions !")
  else pure (globalPrune (if last then P.globalLimitFinal else P.globalLimit) t')

/-- Lines 110-367 over the given levels. -/
def searchLevels (P : Problem V) : List Nat → Tabs V → Py (Tabs V)
  | [], t => .ok t
  | level :: ls, t => do
    let t' ← searchLevel P level t
    searchLevels P ls t'

/-- Lines 81-367: the beam search. -/
def beamSearch (P : Problem V) : Py (Tabs V) := searchLevels P P.indices (initTabs P)

/-! ### assembly and selection -/

/-- Lines 376-397: assembly of one panel of a symmetric laminate from its half; `n` is the number of
plies of the panel, `middlePlyIndex` is `(n + 1)/2` for an odd `n` (panels.py 227-233).  `np.delete`
out of bounds raises. -/
def assembleSym (bot : Stack) (n : Nat) : Py Stack :=
  let s := bot ++ bot.reverse
  let check : Stack → Py Stack := fun s =>
    if s.length ≠ n then .error (.exc "Wrong ply count") else .ok s
  if n % 2 = 1 then
    if (n + 1) / 2 < s.length then check (s.eraseIdx ((n + 1) / 2)) else .error .indexError
  else check s

/-- Lines 398-408: assembly of one panel of an asymmetric laminate. -/
def assembleAsym (bot top : Stack) (n : Nat) : Py Stack :=
  if (bot ++ top).length ≠ n then .error (.exc "Wrong ply count") else .ok (bot ++ top)

/-- The objective value of failed repairs, lines 470-483. -/
def failObj : ℚ := 10 ^ 10

/-- Lines 502-539: selection of the best design after repair.  `finals` lists stacking sequences,
`lampams`, ... the other tables; the result gives the entries returned for each of them.  With
`save_success_rate` the designs with a failed repair are deleted from `sst_final` (if one remains),
`lampam_tab` and `obj_constraints_tab`, but neither from `ss_bot_tab`, copied beforehand, nor from
`n_plies_per_angle_tab`. -/
def selectDesign {α β γ δ : Type} (save : Bool) (ss : List α) (sst : List β) (lampams : List γ)
    (counts : List δ) (objs : List ℚ) : Py (Option (α × β × γ × δ × ℚ)) :=
  let keep := (List.range objs.length).filter (fun i => decide (objs.getD i 0 < failObj))
  let del := (List.range objs.length).filter (fun i => ! keep.contains i)
  let sst' := if save = true ∧ keep.length ≠ 0 then npDelete del sst else sst
  let lampams' := if save then npDelete del lampams else lampams
  let objs' := if save then npDelete del objs else objs
  if objs'.length = 0 then .ok none
  else do
    let i := argMin objs'
    let s ← pyGet ss i
    let l ← pyGet lampams' i
    let n ← pyGet counts i
    let o ← pyGet objs' i
    let t ← pyGet sst' i
    pure (some (s, t, l, n, o))

/-! ### optimiser.py -/

/-- optimiser.py 105-123: the loop over the initial ply drop layouts; `outcomes` lists the result of
the optimisation with each layout (`none` if there is no solution).  Entries of the table not yet
written are `none` (NaN for the objective, a laminate of zeros for the design).  The test
`abs(obj).all() < 1e-10` of line 119 compares a truth value: it holds exactly for `obj == 0`. -/
def runLayouts {α : Type} : List (Option (ℚ × α)) → List (Option (ℚ × α))
  | [] => []
  | none :: rest => none :: runLayouts rest
  | some (o, d) :: rest =>
    if o = 0 then some (o, d) :: rest.map (fun _ => none)
    else some (o, d) :: runLayouts rest

/-- `np.argmin` of an array with NaN: the first NaN if there is one. -/
def argMinNan {α : Type} (tab : List (Option (ℚ × α))) : Nat :=
  if tab.any (fun x => x.isNone) then tab.findIdx (fun x => x.isNone)
  else argMin (tab.map (fun x => (x.map Prod.fst).getD 0))

/-- optimiser.py 105-134: the design returned (`none`: the laminate of zeros of an unused entry). -/
def bestOfLayouts {α : Type} (outcomes : List (Option (ℚ × α))) : Py (Option (ℚ × α)) :=
  let tab := runLayouts outcomes
  if tab.length = 0 then .error .valueError
  else pyGet tab (argMinNan tab)

end Bella
