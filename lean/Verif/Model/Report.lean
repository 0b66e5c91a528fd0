import Verif.Model.Optimiser
import Verif.Model.PdlTools
/-
Model of the end of src/BELLA/optimiser.py `BELLA_optimiser` (lines 125-153) and of src/BELLA/save_result.py: the sheets
"Results" and "Best Result" that are written.

Left out: the times, the numbers of calls of the objective function, the buckling factors (`save_buckling` false, the
default) and the columns gamma and delta, which need the stiffness matrix of src/CLA (not in the repository); the
sheets of the set-up and the Excel file itself.  NaN is `none`.
-/
namespace Bella

/-- save_result.py 138-142 and ten_percent_rule.py 206-238: the penalties for the 10% rule of a Python list of laminates; without
percentages the code asks for the `shape` of the list. -/
def reportPenalty10 (c : Cons) (dist : List ℚ → ℚ) (lampams : List (List ℚ)) (ss : List Stack) : Py (List ℚ) :=
  if c.rule10 = true ∧ c.rule10Abdalla = true then .ok (lampams.map dist)
  else if c.pTot > 0 then ss.mapM (calcPenalty10Ss c)
  else .error (.exc "AttributeError: 'list' object has no attribute 'shape'")

/-- ipo_oopo.py 250-262, one of the two penalties (`on` the switch of the rule, `k` the first lamination parameter). -/
def reportOrtho (on : Bool) (k : Nat) (lampam : List ℚ) : Py ℚ :=
  if on then orthoPenalty k lampam else .ok 0

/-- The row of a panel in a sheet, save_result.py 147-223. -/
structure ReportRow where
  index : Nat
  nPlies : Nat
  objNo : Option ℚ
  nDiso : Nat
  nContig : Nat
  ipo : ℚ
  oopo : ℚ
  share0 : ℚ
  share90 : ℚ
  share45 : ℚ
  share135 : ℚ
  shareBoth : ℚ
  penDiso : ℚ
  penContig : ℚ
  pen10 : ℚ
  penIpo : ℚ
  penOopo : ℚ
  counts : List Nat
  errors : List ℚ
  lampam : List ℚ
  sst : Stack
  ss : Stack
  layout : Stack
  deriving DecidableEq, Repr

/-- One table written: the values of its first row and the rows of the panels. -/
structure Report where
  obj : Option ℚ
  spacing : Option ℚ
  rows : List ReportRow
  deriving DecidableEq, Repr

/-- save_result.py 157-167: the percentage of a fibre direction in a row of the table. -/
def rowShare (row : Stack) (k : Nat) : Py ℚ :=
  if row.length = 0 then .error .zeroDivision else .ok ((k : ℚ) / (row.length : ℚ))

/-- save_result.py 80-224 `save_result_BELLA_one_pdl`: `entry` is the line `ind` of the tables of the results (`none`: never
written), `ss` and `sst` the laminates and the table of the best design, `pdl` the layout. -/
def reportOne (c : Cons) (lampamOf : Stack → List ℚ) (dist : List ℚ → ℚ) (plies : List Nat) (targets : List (List ℚ))
    (ss : List Stack) (sst : Table) (entry : Option OneResult) (pdl : Table) : Py Report := do
  let nDiso ← calcNumberViolationsDisoMp ss c.deltaAngle c.damTol c.damTolAttr
  let penDiso ← normPenalty c.diso nDiso plies
  let nContig ← calcPenaltyContigMp ss c.nContig c.damTol c.damTolAttr
  let penContig ← normPenalty c.contig nContig plies
  let lampams := ss.map lampamOf
  let pen10 ← reportPenalty10 c dist lampams ss
  let penIpo ← lampams.mapM (reportOrtho c.ipo 2)
  let penOopo ← lampams.mapM (reportOrtho c.oopo 10)
  let rows ← (List.range plies.length).mapM (fun (i : Nat) => do
    let n ← pyGet plies i
    let objNo ← (match entry with
      | none => (.ok none : Py (Option ℚ))
      | some r => do
        let o ← pyGet r.objsNo i
        return some o)
    let nd ← pyGet nDiso i
    let nc ← pyGet nContig i
    let l ← pyGet lampams i
    let l3 ← pyGet l 2
    let l4 ← pyGet l 3
    let l11 ← pyGet l 10
    let l12 ← pyGet l 11
    let row ← pyGet sst i
    let s0 ← rowShare row (row.count 0)
    let s90 ← rowShare row (row.count 90)
    let s45 ← rowShare row (row.count 45)
    let s135 ← rowShare row (row.count (-45))
    let both ← rowShare row (row.count 45 + row.count (-45))
    let pd ← pyGet penDiso i
    let pc ← pyGet penContig i
    let p10 ← pyGet pen10 i
    let pi ← pyGet penIpo i
    let po ← pyGet penOopo i
    let t ← pyGet targets i
    let errors ← (List.range 12).mapM (fun (k : Nat) => do
      let x ← pyGet t k
      let y ← pyGet l k
      return |x - y|)
    let s ← pyGet ss i
    let d ← pyGet pdl i
    return ({
      index := i + 1
      nPlies := n
      objNo := objNo
      nDiso := nd
      nContig := nc
      ipo := |l3| + |l4|
      oopo := |l11| + |l12|
      share0 := s0
      share90 := s90
      share45 := s45
      share135 := s135
      shareBoth := both
      penDiso := pd
      penContig := pc
      pen10 := p10
      penIpo := pi
      penOopo := po
      counts := c.angles.map (fun (x : Int) => row.count x)
      errors := errors
      lampam := l
      sst := row
      ss := s
      layout := d } : ReportRow))
  return { obj := entry.map (fun (r : OneResult) => r.obj), spacing := entry.map (fun (r : OneResult) => r.penSpacing), rows := rows }

/-- optimiser.py 128-129 with results.py 79-102: the laminates and the table of an entry; zeros when it was never written. -/
def entryDesign (plies : List Nat) (nMax : Nat) : Option OneResult → List Stack × Table
  | some r => (r.ss, r.sst)
  | none => (plies.map (fun (n : Nat) => List.replicate n 0), plies.map (fun _ => List.replicate nMax 0))

/-- save_result.py 27-79 `save_result_BELLAs` for the results `tab` and the extended layouts `pdls`: the tables of the sheet "Results"
and the table of the sheet "Best Result". -/
def saveReports (c : Cons) (lampamOf : Stack → List ℚ) (dist : List ℚ → ℚ) (plies : List Nat) (nMax : Nat)
    (targets : List (List ℚ)) (tab : List (Option OneResult)) (pdls : List Table) : Py (List Report × Report) := do
  let m := argMinNan (tab.map (Option.map (fun (r : OneResult) => (r.obj, r))))
  let best ← pyGet tab m
  let design := entryDesign plies nMax best
  let sheets ← (List.range tab.length).mapM (fun (i : Nat) => do
    let entry ← pyGet tab i
    let pdl ← pyGet pdls i
    reportOne c lampamOf dist plies targets design.1 design.2 entry pdl)
  let pdl ← pyGet pdls m
  let entry ← pyGet tab 0
  let last ← reportOne c lampamOf dist plies targets design.1 design.2 entry pdl
  return (sheets, last)

/-- What a call of BELLA leaves: the design returned and the two sheets. -/
structure BellaOutput where
  design : Option OneResult
  sheets : List Report
  best : Report
  deriving DecidableEq, Repr

/-- optimiser.py 143-148: the layouts must fit the columns of the array `pdls` (`ValueError`).  (A table of another width would raise the
same exception earlier, in results.py 101.) -/
def requireWidth (nMax : Nat) (pdls : List Table) : Py Unit :=
  if pdls.all (fun (t : Table) => t.all (fun (row : Stack) => row.length == nMax)) then .ok () else .error .valueError

/-- optimiser.py 105-153, from the initial layouts on. -/
def bellaFinish {V : Type} [Zero V] [Add V] (B : BellaSetup V) (targets : List (List ℚ)) (pdls : List Table) :
    Option (Py BellaOutput) :=
  match outerLoop (fun pdl => optimiserOnePdl (B.problem pdl) B.O B.save B.plies.length B.nMax) pdls with
  | none => none
  | some (.error e) => some (.error e)
  | some (.ok tab) => some (do
    let design ← pickBest tab
    let pdls' ← pdls.mapM (extendData B.O.S.r B.plies.length)
    let _ ← requireWidth B.nMax pdls'
    let r ← saveReports B.O.S.c B.O.S.lampam B.O.S.dist B.plies B.nMax targets tab pdls'
    return { design := design, sheets := r.1, best := r.2 })

/-- optimiser.py 65-86: the initial layouts, drawn or read from a file (`file`, then checked); `n_ini_ply_drops` becomes the number
of layouts read. -/
def BellaSetup.layoutsFrom {V : Type} (B : BellaSetup V) (file : Option (List Table))
    (sched : List (List (List (Draw × Bool)) × Bool)) : Option (Py (List Table)) :=
  match file with
  | none => B.layouts sched
  | some pdls =>
    match checkPdlsIni B.O.S.r.nPlies pdls with
    | .error e => some (.error e)
    | .ok _ =>
      match divideStrip B.O.S.c.sym B.nMax B.O.S.c.nCovering B.gmin 10000 B.O.S.r.nPlies B.fuel with
      | none => none
      | some (.error e) => some (.error e)
      | some (.ok _) => some (.ok pdls)

/-- optimiser.py 30-153 `BELLA_optimiser`, to its end (with a material; `targets`: the lamination parameter targets of the panels of
the structure). -/
def bellaRun {V : Type} [Zero V] [Add V] (B : BellaSetup V) (targets : List (List ℚ)) (file : Option (List Table))
    (sched : List (List (List (Draw × Bool)) × Bool)) : Option (Py BellaOutput) :=
  match B.layoutsFrom file sched with
  | none => none
  | some (.error e) => some (.error e)
  | some (.ok pdls) => bellaFinish B targets pdls

end Bella
