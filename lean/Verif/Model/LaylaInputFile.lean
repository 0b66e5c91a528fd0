import Verif.Model.InputFile
import Verif.Model.LaylaConstraints
import Verif.Model.LaylaParameters
/-
Model of src/LAYLA_V02/save_set_up.py: what is written to the sheets Constraints and Parameters (the sheet Materials is the one of BELLA,
`saveMaterials`).  As in Model/InputFile.lean a sheet is a list of labelled cells, and the workbook itself is not modelled.  The row
`type of objective function` (a text made of the attribute that the model of `Parameters` leaves out) is not modelled.
-/
namespace Bella

/-- save_set_up.py 68-78: a percentage of the 10% rule as written, 0 without the rule. -/
def savedLaylaPercent (c : Cons) (p : ℚ) : Cell := .num (if c.rule10 then p * 100 else 0)

/-- save_set_up.py 56-84: the constraints. -/
def saveLaylaRules (c : Cons) : Sheet :=
  [ ("symmetry", .flag c.sym),
    ("balance", .flag c.bal),
    ("in-plane orthotropy", .flag c.ipo),
    ("out-of-plane orthotropy", .flag c.oopo),
    ("damage tolerance", .flag c.damTol),
    ("dam_tol_rule", .num (damTolRuleOf c.damTolAttr)),
    ("10% rule", .flag c.rule10),
    ("percent_0", savedLaylaPercent c c.p0),
    ("percent_45", savedLaylaPercent c c.p45),
    ("percent_90", savedLaylaPercent c c.p90),
    ("percent_-45", savedLaylaPercent c c.p135),
    ("percent_+-45", savedLaylaPercent c c.p45_135),
    ("diso", .flag c.diso),
    ("delta_angle", .num c.deltaAngle),
    ("contig", .flag c.contig),
    ("n_contig", .num c.nContigC),
    ("fibre orientations", .ints c.angles) ]

/-- save_set_up.py 86-112: the constraints that must be broken (`not_constraints`); `No balance !` is the attribute `ipo`. -/
def saveLaylaNot (n : Cons) : Sheet :=
  (if n.diso then [("No diso !", .flag n.diso), ("delta_angle (no)", .num n.deltaAngle)] else []) ++
  (if n.contig then [("No contig !", .flag n.contig), ("n_contig (no)", .num n.nContigC)] else []) ++
  (if n.bal then [("No balance !", .flag n.ipo)] else []) ++
  (if n.ipo then [("No in-plane orthotropy !", .flag n.ipo)] else []) ++
  (if n.rule10 then
    [ ("No 10% rule !", .flag n.rule10),
      ("percent_0 (no)", .num (100 * n.p0)),
      ("percent_45 (no)", .num (100 * n.p45)),
      ("percent_90 (no)", .num (100 * n.p90)),
      ("percent_-45 (no)", .num (100 * n.p135)),
      ("percent_+-45 (no)", .num (100 * n.p45_135)) ] else [])

/-- save_set_up.py 52-117 `save_constraints_LAYLA`. -/
def saveLaylaConstraints (c : Cons) (n : Option Cons) : Sheet :=
  saveLaylaRules c ++ (match n with
    | none => []
    | some n => saveLaylaNot n)

/-- save_set_up.py 169-192: twelve components of an array, in twelve rows. -/
def saveSensitivities (l : List ℚ) : Py Sheet :=
  match l with
  | x1 :: x2 :: x3 :: x4 :: x5 :: x6 :: x7 :: x8 :: x9 :: x10 :: x11 :: x12 :: _ =>
    .ok [ ("first_level_sensitivities[1]", .num x1), ("first_level_sensitivities[2]", .num x2),
      ("first_level_sensitivities[3]", .num x3), ("first_level_sensitivities[4]", .num x4),
      ("first_level_sensitivities[5]", .num x5), ("first_level_sensitivities[6]", .num x6),
      ("first_level_sensitivities[7]", .num x7), ("first_level_sensitivities[8]", .num x8),
      ("first_level_sensitivities[9]", .num x9), ("first_level_sensitivities[10]", .num x10),
      ("first_level_sensitivities[11]", .num x11), ("first_level_sensitivities[12]", .num x12) ]
  | _ => .error .indexError

/-- save_set_up.py 194-217: twelve components of an array, in twelve rows. -/
def saveOptimised (l : List ℚ) : Py Sheet :=
  match l with
  | x1 :: x2 :: x3 :: x4 :: x5 :: x6 :: x7 :: x8 :: x9 :: x10 :: x11 :: x12 :: _ =>
    .ok [ ("lampam_to_be_optimised[1]", .num x1), ("lampam_to_be_optimised[2]", .num x2),
      ("lampam_to_be_optimised[3]", .num x3), ("lampam_to_be_optimised[4]", .num x4),
      ("lampam_to_be_optimised[5]", .num x5), ("lampam_to_be_optimised[6]", .num x6),
      ("lampam_to_be_optimised[7]", .num x7), ("lampam_to_be_optimised[8]", .num x8),
      ("lampam_to_be_optimised[9]", .num x9), ("lampam_to_be_optimised[10]", .num x10),
      ("lampam_to_be_optimised[11]", .num x11), ("lampam_to_be_optimised[12]", .num x12) ]
  | _ => .error .indexError

/-- save_set_up.py 120-222 `save_parameters_LAYLA_V02`; `sens` and `mask` are the attributes `first_level_sensitivities` and
`lampam_to_be_optimised`, which are the arguments given to the constructor (parameters.py 261 and 275). -/
def saveLaylaParams (p : LaylaParams) (sens mask : List ℚ) : Py Sheet := do
  let s ← saveSensitivities sens
  let m ← saveOptimised mask
  return [
    ("maximum number of iterations", .num p.nOuter),
    ("global_node_limit", .num p.globalNodeLimit),
    ("global_node_limit_p", .num p.globalNodeLimitP),
    ("local_node_limit", .num p.localNodeLimit),
    ("local_node_limit_final", .num p.localNodeLimitFinal),
    ("repair_membrane_switch", .flag p.membrane),
    ("repair_flexural_switch", .flag p.flexural),
    ("p_A", .num p.pA),
    ("n_D1", .num p.nD1),
    ("n_D2", .num p.nD2),
    ("n_D3", .num p.nD3),
    ("penalty for the 10% rule (ply counts)", .flag p.pen10Pc),
    ("penalty for the 10% rule (lampam)", .flag p.pen10Lampam),
    ("penalty for balance", .flag p.penBal),
    ("penalty for in-plane orthotropy", .flag p.penIpo),
    ("coeff for in-plane orthotropy/balance penalty", .num p.coeffBalIpo),
    ("coeff for out-of plane orthotropy penalty", .num p.coeffOopo),
    ("coeff for the 10% rule penalty", .num p.coeff10),
    ("minimum group size", .num p.groupSizeMin),
    ("maximum group size", .ints p.groupSizeMax) ] ++ s ++ m

end Bella
