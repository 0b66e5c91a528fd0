import Verif.Model.RepairMp
import Verif.Model.Disorientation
/-
Model of src/BELLA/optimiser_with_one_pdl.py 372-671: what follows the beam search of the ply angles for one ply drop
layout (assembly, repair, evaluation and selection of the designs, final checks, results), of `calc_ply_counts` and of
the several-laminates branches of the penalties it uses.

`calc_lampam` (src/CLA, not in the repository) and the distance of the Abdalla rule are parameters (fields of
`StripSetup`).  The counters of `BELLA_ResultsOnePdl` are in
Model/SuccessRates.lean; the printed messages are left out.
-/
namespace Bella

/-- ten_percent_rule.py 51-72 `calc_ply_counts` (exact numbers instead of `float16`; `plyCounts` counts the plies of one panel). -/
def calcPlyCounts (c : Cons) (nPanels : Nat) (stacks_ : List Stack) : Py (List (List ℚ)) :=
  (List.range nPanels).mapM (fun (ip : Nat) => do
    let s ← pyGet stacks_ ip
    plyCounts c s)

/-- optimiser_with_one_pdl.py 438-450 and 583-595: violations divided by the numbers of plies. -/
def normPenalty (on : Bool) (viol plies : List Nat) : Py (List ℚ) :=
  if on = true ∧ viol.any (fun (v : Nat) => v != 0) = true then
    if viol.length = plies.length then
      .ok (List.zipWith (fun (v n : Nat) => (v : ℚ) / (n : ℚ)) viol plies)
    else .error .valueError
  else .ok (List.replicate plies.length 0)

/-- optimiser_with_one_pdl.py 452-458 and 597-601: the penalties for the 10% rule, per panel
(ten_percent_rule.py 207-212 and 263-282). -/
def penalty10Mp (c : Cons) (dist : List ℚ → ℚ) (lampams : List (List ℚ)) (counts : List (List ℚ)) : Py (List ℚ) :=
  if c.rule10 = true ∧ c.rule10Abdalla = true then .ok (lampams.map dist)
  else counts.mapM (fun (n : List ℚ) => calcPenalty10PcRow c n 1)

/-- objectives.py 53-81 `calc_obj_each_panel`: one target and one list of weights per panel of the strip. -/
def objEachPanel (targets weights : List (List ℚ)) (lampams : List (List ℚ)) : Py (List ℚ) :=
  (List.range targets.length).mapM (fun (i : Nat) => do
    let l ← pyGet lampams i
    let t ← pyGet targets i
    let w ← pyGet weights i
    objOnePanel l t w)

/-- The data of the steps after the beam search: the repairs (`R`, `ipoOk`, `S`), the coefficients of the penalties and
`lampam_weightings[level]` for the last level searched. -/
structure OneSetup where
  R : RepairSetup
  ipoOk : Stack → Bool
  S : StripSetup
  coeffs : ObjCoeffs
  weights : List (List ℚ)

/-- What is known of a design of the blending strip after its repair; `step` is `results_repair[4]`. -/
structure Design where
  success : Bool
  ss : List Stack
  sst : Table
  pdl : Table
  lampams : List (List ℚ)
  counts : List (List ℚ)
  objsNo : List ℚ
  obj : ℚ
  step : Nat
  deriving DecidableEq, Repr

/-- The violations and penalties of the laminates of a strip. -/
structure Penalties where
  nDiso : List Nat
  nContig : List Nat
  diso : List ℚ
  contig : List ℚ
  ten : List ℚ
  deriving DecidableEq, Repr

/-- optimiser_with_one_pdl.py 438-458 and 582-601. -/
def calcPenalties (O : OneSetup) (ss : List Stack) (lampams counts : List (List ℚ)) : Py Penalties := do
  let nDiso ← calcNumberViolationsDisoMp ss O.S.c.deltaAngle O.S.c.damTol O.S.c.damTolAttr
  let diso ← normPenalty O.S.c.diso nDiso O.S.r.nPlies
  let nContig ← calcPenaltyContigMp ss O.S.c.nContig O.S.c.damTol O.S.c.damTolAttr
  let contig ← normPenalty O.S.c.contig nContig O.S.r.nPlies
  let ten ← penalty10Mp O.S.c O.S.dist lampams counts
  return { nDiso := nDiso, nContig := nContig, diso := diso, contig := contig, ten := ten }

/-- optimiser_with_one_pdl.py 486-497 and 617-627: `calc_obj_multi_panel` with the penalties for balance zero and those
for out-of-plane orthotropy and weight left out. -/
def objOfPenalties (O : OneSetup) (objs : List ℚ) (p : Penalties) : Py ℚ :=
  objMultiPanel O.S.panelWeights objs
    [(O.coeffs.cDiso, .arr p.diso), (O.coeffs.cContig, .arr p.contig), (O.coeffs.c10, .arr p.ten),
     (O.coeffs.cBal, .arr (List.replicate O.S.r.nPlies.length 0))]

/-- optimiser_with_one_pdl.py 470-479: objectives without penalties, 1e10 after a failed repair. -/
def designObjs (O : OneSetup) (success : Bool) (lampams : List (List ℚ)) : Py (List ℚ) :=
  if success then objEachPanel O.S.targets O.weights lampams
  else .ok (List.replicate O.S.r.nPlies.length failObj)

/-- optimiser_with_one_pdl.py 482-497: the objective of the strip. -/
def designObj (O : OneSetup) (objs : List ℚ) (p : Penalties) : Py ℚ :=
  if objs.all (fun (o : ℚ) => o != failObj) then objOfPenalties O objs p else .ok failObj

/-- optimiser_with_one_pdl.py 428-498: evaluation of a repaired design. -/
def evalDesign (O : OneSetup) (r : MpResult) : Py Design := do
  let lampams := r.ss.map O.S.lampam
  let counts ← calcPlyCounts O.S.c O.S.r.nPlies.length r.ss
  let p ← calcPenalties O r.ss lampams counts
  let objs ← designObjs O r.success lampams
  let obj ← designObj O objs p
  return { success := r.success, ss := r.ss, sst := r.sst, pdl := r.pdl, lampams := lampams, counts := counts,
           objsNo := objs, obj := obj, step := r.step }

/-- optimiser_with_one_pdl.py 374-408: the laminates of a node of the beam search. -/
def assembleNode (O : OneSetup) (bot top : List Stack) : Py (List Stack) :=
  (List.range O.S.r.nPlies.length).mapM (fun (ip : Nat) => do
    let n ← pyGet O.S.r.nPlies ip
    let b ← pyGet bot ip
    if O.S.c.sym then assembleSym b n
    else do
      let t ← pyGet top ip
      assembleAsym b t n)

/-- optimiser_with_one_pdl.py 372-498: one iteration of the loop over the nodes. -/
def repairNode (O : OneSetup) (pdl : Table) (w : Nat) (bot top : List Stack) : Option (Py Design) :=
  match assembleNode O bot top with
  | .error e => some (.error e)
  | .ok stacks_ =>
    match repairMp O.R O.ipoOk O.S stacks_ pdl w with
    | none => none
    | some (.error e) => some (.error e)
    | some (.ok r) => some (evalDesign O r)

/-- optimiser_with_one_pdl.py 372-498: the loop over the nodes. -/
def repairNodes (O : OneSetup) (pdl : Table) (w : Nat) : List (List Stack × List Stack) → Option (Py (List Design))
  | [] => some (.ok [])
  | (bot, top) :: rest =>
    match repairNode O pdl w bot top with
    | none => none
    | some (.error e) => some (.error e)
    | some (.ok d) =>
      match repairNodes O pdl w rest with
      | none => none
      | some (.error e) => some (.error e)
      | some (.ok ds) => some (.ok (d :: ds))

/-- The results of `BELLA_optimiser_one_pdl` that are lists over all the panels of the structure. -/
structure OneResult where
  ss : List Stack
  sst : Table
  pdl : Table
  lampams : List (List ℚ)
  counts : List (List ℚ)
  objsNo : List ℚ
  obj : ℚ
  nDiso : List Nat
  nContig : List Nat
  penDiso : List ℚ
  penContig : List ℚ
  pen10 : List ℚ
  penBal : List ℚ
  penOopo : List ℚ
  penSpacing : ℚ
  deriving DecidableEq, Repr

/-- ipo_oopo.py 207-220 `calc_penalty_ipo`, one panel (`k = 2`), and 281-284 of `calc_penalty_oopo_ss` (`k = 10`). -/
def orthoPenalty (k : Nat) (lampam : List ℚ) : Py ℚ := do
  let x ← pyGet lampam k
  let y ← pyGet lampam (k + 1)
  return (|x| + |y|) / 2

/-- ipo_oopo.py 266-292 `calc_penalty_oopo_ss` for several panels. -/
def oopoPenalties (c : Cons) (lampams : List (List ℚ)) : Py (List ℚ) :=
  if c.oopo then lampams.mapM (orthoPenalty 10) else .ok (List.replicate lampams.length 0)

/-- optimiser_with_one_pdl.py 544-547: the check of the ply counts. -/
def checkCounts (O : OneSetup) (ss : List Stack) : Py Unit :=
  requirePy ((List.range O.S.r.nPlies.length).all (fun (i : Nat) => (ss.getD i []).length == O.S.r.nPlies.getD i 0))
    "\nWrong ply counts in the laminate."

/-- optimiser_with_one_pdl.py 549-556: `not abs(lampam - lampam_test).all() < 1e-13` raises exactly when no entry of the
difference is zero. -/
def checkLampams (lampams lampams' : List (List ℚ)) : Py Unit :=
  requirePy (! (List.zipWith (fun (a b : List ℚ) => (List.zipWith (fun (x y : ℚ) => x != y) a b).all (fun (d : Bool) => d))
    lampams lampams').all (fun (d : Bool) => d)) "\nLamination parameters not matching the stacking sequences."

/-- optimiser_with_one_pdl.py 566-570: `abs(test - obj > 1e-10).any()` raises when an entry of `test` is larger. -/
def checkObjs (test objs : List ℚ) : Py Unit :=
  requirePy (! (List.zipWith (fun (x y : ℚ) => decide (x - y > 1 / 10 ^ 10)) test objs).any (fun (d : Bool) => d))
    "\nObjective function value not matching the stacking sequences."

/-- optimiser_with_one_pdl.py 648-671: the results, extended to all the panels. -/
def extendResults (O : OneSetup) (nPanels : Nat) (ss : List Stack) (sst pdl : Table) (lampams counts : List (List ℚ))
    (objsNo : List ℚ) (obj : ℚ) (p : Penalties) (bal oopo : List ℚ) (spacing : ℚ) : Py OneResult := do
  let ss' ← extendData O.S.r nPanels ss
  let lampams' ← extendData O.S.r nPanels lampams
  let counts' ← extendData O.S.r nPanels counts
  let objsNo' ← extendData O.S.r nPanels objsNo
  let diso' ← extendData O.S.r nPanels p.diso
  let contig' ← extendData O.S.r nPanels p.contig
  let ten' ← extendData O.S.r nPanels p.ten
  let bal' ← extendData O.S.r nPanels bal
  let oopo' ← extendData O.S.r nPanels oopo
  let nDiso' ← extendData O.S.r nPanels p.nDiso
  let nContig' ← extendData O.S.r nPanels p.nContig
  let sst' ← extendData O.S.r nPanels sst
  let pdl' ← extendData O.S.r nPanels pdl
  return { ss := ss', sst := sst', pdl := pdl', lampams := lampams', counts := counts', objsNo := objsNo', obj := obj,
           nDiso := nDiso', nContig := nContig', penDiso := diso', penContig := contig', pen10 := ten', penBal := bal',
           penOopo := oopo', penSpacing := spacing }

/-- optimiser_with_one_pdl.py 541-671: the checks of the selected design and the results. -/
def finishDesign (O : OneSetup) (nPanels : Nat) (ss : List Stack) (sst pdl : Table) (lampams counts : List (List ℚ))
    (objsNo : List ℚ) (obj : ℚ) : Py OneResult := do
  let _ ← checkCounts O ss
  let _ ← checkLampams lampams (ss.map O.S.lampam)
  let test ← objEachPanel O.S.targets O.weights lampams
  let _ ← checkObjs test objsNo
  let p ← calcPenalties O ss lampams counts
  let testObj ← objOfPenalties O objsNo p
  let _ ← checkObjs [testObj] [obj]
  let bal ← lampams.mapM (orthoPenalty 2)
  let oopo ← oopoPenalties O.S.c lampams
  let spacing ← stripSpacing O.S.c O.S.r (pdl.map some)
  extendResults O nPanels ss sst pdl lampams counts objsNo obj p bal oopo spacing

/-- optimiser_with_one_pdl.py 502-671: selection of a design (`selectDesign`), checks and results; `none` if there is no
design left. -/
def finishOne (O : OneSetup) (save : Bool) (nPanels : Nat) (ds : List Design) : Py (Option OneResult) := do
  let sel ← selectDesign save (ds.map (fun (d : Design) => d.ss)) (ds.map (fun (d : Design) => (d.sst, d.pdl)))
    (ds.map (fun (d : Design) => (d.lampams, d.objsNo))) (ds.map (fun (d : Design) => d.counts))
    (ds.map (fun (d : Design) => d.obj))
  match sel with
  | none => return none
  | some (ss, tables, lps, counts, obj) => do
    let r ← finishDesign O nPanels ss tables.1 tables.2 lps.1 counts lps.2 obj
    return some r

/-- optimiser_with_one_pdl.py 33-671 `BELLA_optimiser_one_pdl`: the beam search of the problem `P` followed by the
repairs.  `w` is the number of columns of the layout, `nPanels` the number of panels of the structure. -/
def optimiserOnePdl {V : Type} [Zero V] [Add V] (P : Problem V) (O : OneSetup) (save : Bool) (nPanels w : Nat) :
    Option (Py (Option OneResult)) :=
  match beamSearch P with
  | .error e => some (.error e)
  | .ok t =>
    match repairNodes O P.pdl w (t.bots.zip t.tops) with
    | none => none
    | some (.error e) => some (.error e)
    | some (.ok ds) => some (finishOne O save nPanels ds)

end Bella
