import Verif.Model.MultiPanel
import Verif.Model.Orthotropy
/-
Model of src/BELLA/save_set_up.py (what is written to the sheets Constraints, Materials, Objective function, Multipanel and Panels) and of the
part of run_BELLA_from_input_file_SST_1.py and run_BELLA_from_input_file_horseshoe.py that reads these sheets.

A sheet of one column is a list of labelled cells, the sheet Panels a list of rows of labelled cells.

Trusted and not modelled: the workbook itself (pandas and openpyxl write to a new file and read back the same booleans, numbers and texts),
floating-point rounding (exact rationals here), and the texts: `" ".join` of integers followed by `split(" ")` and `int` is taken to give back the
integers, when there is one.  A text without any integer is an empty cell, read back as NaN, which has no `split`.
-/
namespace Bella

/-- A cell of a sheet: a boolean, a number, or a text made of integers separated by blanks. -/
inductive Cell where
  | flag (b : Bool)
  | num (q : ℚ)
  | ints (l : List Int)
  deriving DecidableEq, Repr

/-- A sheet (or a row of the sheet Panels): labels and cells. -/
abbrev Sheet := List (String × Cell)

/-- `data[label].iloc[0]`: `KeyError` for a missing label. -/
def Sheet.cell (s : Sheet) (label : String) : Py Cell :=
  match s.lookup label with
  | some c => .ok c
  | none => .error .keyError

/-- A boolean argument: the constructors reject anything else (constraints.py, `isinstance(…, bool)`). -/
def Cell.asFlag : Cell → Py Bool
  | .flag b => .ok b
  | _ => .error (.exc "must be a boolean")

/-- Python `float(…)`. -/
def Cell.asFloat : Cell → Py ℚ
  | .flag b => .ok (if b then 1 else 0)
  | .num q => .ok q
  | .ints [x] => .ok x
  | .ints _ => .error .valueError

/-- Python `int(…)` truncates towards zero. -/
def truncRat (q : ℚ) : Int := if 0 ≤ q then q.floor else -(-q).floor

/-- Python `int(…)`. -/
def Cell.asInt : Cell → Py Int
  | .flag b => .ok (if b then 1 else 0)
  | .num q => .ok (truncRat q)
  | .ints [x] => .ok x
  | .ints _ => .error .valueError

/-- `np.array(… .split(" "), int)`: only a text can be split. -/
def Cell.asInts : Cell → Py (List Int)
  | .ints [] => .error (.exc "'float' object has no attribute 'split'")
  | .ints l => .ok l
  | _ => .error (.exc "object has no attribute 'split'")

def Sheet.flag (s : Sheet) (l : String) : Py Bool := do
  let c ← s.cell l
  c.asFlag

def Sheet.float (s : Sheet) (l : String) : Py ℚ := do
  let c ← s.cell l
  c.asFloat

def Sheet.int (s : Sheet) (l : String) : Py Int := do
  let c ← s.cell l
  c.asInt

def Sheet.ints (s : Sheet) (l : String) : Py (List Int) := do
  let c ← s.cell l
  c.asInts

/-- `constraints.dam_tol_rule` (always a rule for the constraints of BELLA). -/
def damTolRuleOf : DamTolAttr → Int
  | .rule r => r
  | .nPlies k => k

/-- A percentage of the 10% rule as written: 0 without the rule (save_set_up.py 214-228). -/
def savedPercent (c : Cons) (p : ℚ) : Cell := .num (if c.rule10 then p * 100 else 0)

/-- save_set_up.py 197-247 `save_constraints_BELLA`. -/
def saveConstraints (c : Cons) : Sheet :=
  [ ("symmetry", .flag c.sym),
    ("balance", .flag c.bal),
    ("out-of-plane orthotropy", .flag c.oopo),
    ("damage tolerance", .flag c.damTol),
    ("dam_tol_rule", .num (damTolRuleOf c.damTolAttr)),
    ("covering", .flag c.covering),
    ("n_covering", .num c.nCovering),
    ("10% rule", .flag c.rule10),
    ("10% rule applied on LPs", .flag (c.rule10 && c.rule10Abdalla)),
    ("10% rule applied on ply percentages", .flag (c.rule10 && !c.rule10Abdalla)),
    ("percentage limit when rule applied on LPs", savedPercent c c.pAbdalla),
    ("percent_0", savedPercent c c.p0),
    ("percent_45", savedPercent c c.p45),
    ("percent_90", savedPercent c c.p90),
    ("percent_-45", savedPercent c c.p135),
    ("percent_+-45", savedPercent c c.p45_135),
    ("diso", .flag c.diso),
    ("delta_angle", .num c.deltaAngle),
    ("contig", .flag c.contig),
    ("n_contig", .num c.nContigC),
    ("fibre orientations", .ints c.angles),
    ("number fibre orientations", .num c.nAngles),
    ("ply drop spacing rule", .flag c.pdlSpacing),
    ("minimum number of continuous plies between ply drops", .num c.minDrop) ]

/-- run_BELLA_from_input_file_SST_1.py 41-67: the arguments read from the sheet Constraints.  `delta_angle` is an integer in the model. -/
def readConstraints (s : Sheet) : Py ConsArgs := do
  let sym ← s.flag "symmetry"
  let bal ← s.flag "balance"
  let oopo ← s.flag "out-of-plane orthotropy"
  let damTol ← s.flag "damage tolerance"
  let damTolRule ← s.int "dam_tol_rule"
  let covering ← s.flag "covering"
  let nCovering ← s.int "n_covering"
  let rule10 ← s.flag "10% rule"
  let rule10Abdalla ← s.flag "10% rule applied on LPs"
  let percentAbdalla ← s.float "percentage limit when rule applied on LPs"
  let percent0 ← s.float "percent_0"
  let percent45 ← s.float "percent_45"
  let percent90 ← s.float "percent_90"
  let percent135 ← s.float "percent_-45"
  let percent45_135 ← s.float "percent_+-45"
  let diso ← s.flag "diso"
  let deltaAngle ← s.int "delta_angle"
  let contig ← s.flag "contig"
  let nContig ← s.int "n_contig"
  let angles ← s.ints "fibre orientations"
  let pdlSpacing ← s.flag "ply drop spacing rule"
  let minDrop ← s.int "minimum number of continuous plies between ply drops"
  return {
    sym := sym, bal := bal, oopo := oopo, damTol := damTol, damTolRule := damTolRule
    covering := covering, nCovering := nCovering.toNat, rule10 := rule10, rule10Abdalla := rule10Abdalla
    percent0 := percent0, percent45 := percent45, percent90 := percent90, percent135 := percent135
    percent45_135 := percent45_135, percentAbdalla := percentAbdalla
    diso := diso, deltaAngle := deltaAngle, contig := contig, nContig := nContig.toNat
    setOfAngles := angles, pdlSpacing := pdlSpacing, minDrop := minDrop }

/-- run_BELLA_from_input_file_SST_1.py 41-90: the constraints of an input file. -/
def loadConstraints (s : Sheet) : Py Cons := do
  let a ← readConstraints s
  mkConstraints a

/-- save_set_up.py 40-68 `save_materials`. -/
def saveMaterials (m : Lamina ℚ) : Sheet :=
  [ ("E11", .num m.E11), ("E22", .num m.E22), ("G12", .num m.G12), ("nu12", .num m.nu12), ("nu21", .num m.nu21),
    ("areal density", .num m.densityArea), ("volumic density", .num m.densityVolume), ("ply thickness", .num m.plyT),
    ("Q11", .num m.Q11), ("Q12", .num m.Q12), ("Q22", .num m.Q22), ("Q66", .num m.Q66),
    ("U1", .num m.U1), ("U2", .num m.U2), ("U3", .num m.U3), ("U4", .num m.U4), ("U5", .num m.U5) ]

/-- run_BELLA_from_input_file_SST_1.py 183-192: the material of an input file; `density_volume` keeps its default 0 (materials.py 16). -/
def loadMaterials (s : Sheet) : Py (Lamina ℚ) := do
  let E11 ← s.float "E11"
  let E22 ← s.float "E22"
  let nu12 ← s.float "nu12"
  let G12 ← s.float "G12"
  let densityArea ← s.float "areal density"
  let plyT ← s.float "ply thickness"
  mkMaterial E11 E22 nu12 G12 0 densityArea plyT

/-- save_set_up.py 305-333 `save_objective_function_BELLA` (the cell 'optimisation problem' is a constant text and left out). -/
def saveObjFunction (o : ObjCoeffs) : Sheet :=
  [ ("coeff_contig", .num o.cContig), ("coeff_diso", .num o.cDiso), ("coeff_10", .num o.c10), ("coeff_bal_ipo", .num o.cBal),
    ("coeff_oopo", .num o.cOopo), ("coeff_spacing", .num o.cSpacing) ]

/-- The switches of the constraints read by the objective function. -/
def Cons.objSwitches (c : Cons) : ObjSwitches :=
  { rule10 := c.rule10, bal := c.bal, oopo := c.oopo, contig := c.contig, diso := c.diso, pdlSpacing := c.pdlSpacing }

/-- run_BELLA_from_input_file_SST_1.py 196-210: the objective function of an input file; `coeff_bal_ipo` and `n_modes` keep their default 1
(obj_function.py 20, 23). -/
def loadObjFunction (c : Cons) (s : Sheet) : Py ObjCoeffs := do
  let c10 ← s.float "coeff_10"
  let cContig ← s.float "coeff_contig"
  let cDiso ← s.float "coeff_diso"
  let cOopo ← s.float "coeff_oopo"
  let cSpacing ← s.float "coeff_spacing"
  mkObjFunction c.objSwitches cDiso cContig c10 1 cOopo cSpacing 1

/-- A panel when it is saved: its attributes, ID and neighbours, lengths, and its filtered weightings `lampam_weightings`
(panels.py 141-209).  `panel.target` is `lampam_target`, filtered or not. -/
structure SavedPanel where
  panel : Panel
  ids : PanelIds
  lengthX : ℚ
  lengthY : ℚ
  weights : List ℚ
  deriving DecidableEq, Repr

/-- NaN weightings (no weighting is left after the filter) are outside the model of input files. -/
def weightsOf : Option (List ℚ) → Py (List ℚ)
  | some W => .ok W
  | none => .error (.exc "NaN")

/-- What happens to a panel before it is saved (input-files/create_input_file_SST.py 215-233, optimiser.py 56-57): it is built and its targets and
weightings are filtered, `coeff` being the coefficient of out-of-plane orthotropy. -/
def preparePanel (c : Cons) (coeff : ℚ) (a : PanelArgs) (ids : PanelIds) : Py SavedPanel := do
  let p ← mkPanel c.sym a
  let T ← filterTarget c p.target
  let o ← filterWeights c coeff p.weightsIni
  let W ← weightsOf o
  return { panel := { p with target := T }, ids := ids, lengthX := a.lengthX, lengthY := a.lengthY, weights := W }

/-- `'[' + str(ind + 1) + ']'` for `ind` in `range(12)` (save_set_up.py 133-141), and the ends of the labels written out in
run_BELLA_from_input_file_SST_1.py 216-226. -/
def brackets : List String := ["[1]", "[2]", "[3]", "[4]", "[5]", "[6]", "[7]", "[8]", "[9]", "[10]", "[11]", "[12]"]

/-- The twelve cells `name[1]` to `name[12]` (save_set_up.py 133-141); an array with less than 12 components raises `IndexError`. -/
def saveTwelve (name : String) (l : List ℚ) : Py Sheet :=
  brackets.zipIdx.mapM (fun (b : String × Nat) => do
    let x ← pyGet l b.2
    return (name ++ b.1, Cell.num x))

/-- save_set_up.py 119-124: the lengths are written only when both are not zero. -/
def saveLengths (p : SavedPanel) : Sheet :=
  if p.lengthX ≠ 0 ∧ p.lengthY ≠ 0 then
    [("Length_x", .num p.lengthX), ("Length_y", .num p.lengthY), ("Area", .num p.panel.area)]
  else [("Area", .num p.panel.area)]

/-- save_set_up.py 110-141: the row of a panel in the sheet Panels (the loads N_x and N_y, lines 126-128, are not modelled; no panel has the
attribute `Weight` of line 130). -/
def savePanel (p : SavedPanel) : Py Sheet := do
  let t ← saveTwelve "lampam_target" p.panel.target
  let w0 ← saveTwelve "lampam_weightings_ini" p.panel.weightsIni
  let w ← saveTwelve "lampam_weightings" p.weights
  return [("Panel ID", .num p.ids.ID), ("Neighbour panel IDs", .ints p.ids.neighbours), ("Number of plies", .num p.panel.nPlies),
    ("Weighting in MP objective funtion", .num p.panel.weighting)] ++ saveLengths p ++ t ++ w0 ++ w

/-- The sheet Panels, save_set_up.py 108-141 and 193-194. -/
def savePanels (ps : List SavedPanel) : Py (List Sheet) := ps.mapM savePanel

/-- `np.array(data[[name[1], …, name[12]]].iloc[i], float)`, run_BELLA_from_input_file_SST_1.py 216-226, 232-233. -/
def readTwelve (s : Sheet) (name : String) : Py (List ℚ) :=
  brackets.mapM (fun (b : String) => s.float (name ++ b))

/-- The lengths are read by run_BELLA_from_input_file_horseshoe.py 240-241 only.  (When only some of the panels have lengths, the missing cells
are NaN; the model has `KeyError`.) -/
def readLengths (horseshoe : Bool) (s : Sheet) : Py (ℚ × ℚ) :=
  if horseshoe then do
    let x ← s.float "Length_x"
    let y ← s.float "Length_y"
    return (x, y)
  else .ok (0, 0)

/-- run_BELLA_from_input_file_SST_1.py 229-239 (and horseshoe 229-243): a panel of the input file.  The area is not read. -/
def loadPanel (horseshoe : Bool) (c : Cons) (s : Sheet) : Py (Panel × PanelIds) := do
  let id ← s.int "Panel ID"
  let t ← readTwelve s "lampam_target"
  let w ← readTwelve s "lampam_weightings"
  let n ← s.int "Number of plies"
  let weighting ← s.float "Weighting in MP objective funtion"
  let nb ← s.ints "Neighbour panel IDs"
  let l ← readLengths horseshoe s
  let p ← mkPanel c.sym { nPlies := n, target := t, weights := w, lengthX := l.1, lengthY := l.2, weighting := weighting }
  return (p, ⟨id, nb⟩)

/-- pandas reads a column of texts that are all numbers as a column of numbers, which have no `split`. -/
def numericColumn (rows : List Sheet) (label : String) : Bool :=
  rows.all (fun (s : Sheet) => match s.lookup label with
    | some (.ints l) => l.length ≤ 1
    | _ => false)

/-- run_BELLA_from_input_file_SST_1.py 213-241: the structure of an input file, without boundary weightings. -/
def loadStructure (horseshoe : Bool) (pick : List Nat → Nat) (c : Cons) (rows : List Sheet) : Py (List (Panel × PanelIds) × MultiPanel) := do
  (if numericColumn rows "Neighbour panel IDs" = true then Except.error (.exc "object has no attribute 'split'") else .ok ())
  let ps ← rows.mapM (loadPanel horseshoe c)
  let m ← mkMultiPanel pick ps none
  return (ps, m)

/-- save_set_up.py 84-106: the sheet Multipanel (without the optional weight and penalty). -/
def saveMultipanelSheet (nPanels : Nat) (m : MultiPanel) : Sheet :=
  [ ("Number of panels", .num nPanels), ("Number of plies max", .num m.nMax), ("Area", .num m.areaPatches),
    ("Area of all patches", .num m.areaPatches), ("Index of one thickest panel", .num m.indThick) ]

end Bella
