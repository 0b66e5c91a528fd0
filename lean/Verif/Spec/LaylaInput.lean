import Verif.Model.LaylaInputFile
/-
What the sheets written by LAYLA say: the arguments of the constructors of constraints and of parameters that they record.  The
repository has no program that reads these sheets; each argument is the cell with its name.
-/
namespace Bella.Spec

/-- The arguments of `Constraints` recorded on a sheet. -/
def laylaConsOf (s : Sheet) : Py LaylaConsArgs := do
  let sym ← s.flag "symmetry"
  let bal ← s.flag "balance"
  let ipo ← s.flag "in-plane orthotropy"
  let oopo ← s.flag "out-of-plane orthotropy"
  let damTol ← s.flag "damage tolerance"
  let damTolRule ← s.int "dam_tol_rule"
  let rule10 ← s.flag "10% rule"
  let percent0 ← s.float "percent_0"
  let percent45 ← s.float "percent_45"
  let percent90 ← s.float "percent_90"
  let percent135 ← s.float "percent_-45"
  let percent45_135 ← s.float "percent_+-45"
  let diso ← s.flag "diso"
  let deltaAngle ← s.int "delta_angle"
  let contig ← s.flag "contig"
  let nContig ← s.int "n_contig"
  let angles ← s.ints "fibre orientations"
  return {
    sym := sym, bal := bal, ipo := ipo, oopo := oopo, damTol := damTol, damTolRule := damTolRule, rule10 := rule10
    percent0 := percent0, percent45 := percent45, percent90 := percent90, percent135 := percent135
    percent45_135 := percent45_135, diso := diso, deltaAngle := deltaAngle, contig := contig, nContig := nContig.toNat
    setOfAngles := angles }

/-- The twelve numbers recorded under `name[1]`, ..., `name[12]`. -/
def twelveOf (s : Sheet) (labels : List String) : Py (List ℚ) := labels.mapM (fun (l : String) => s.float l)

/-- The arguments of `Parameters` recorded on a sheet. -/
def laylaParsOf (s : Sheet) : Py LaylaParArgs := do
  let nOuter ← s.int "maximum number of iterations"
  let g ← s.int "global_node_limit"
  let gp ← s.int "global_node_limit_p"
  let l ← s.int "local_node_limit"
  let lf ← s.int "local_node_limit_final"
  let me ← s.flag "repair_membrane_switch"
  let fl ← s.flag "repair_flexural_switch"
  let pA ← s.float "p_A"
  let d1 ← s.int "n_D1"
  let d2 ← s.int "n_D2"
  let d3 ← s.int "n_D3"
  let pc ← s.flag "penalty for the 10% rule (ply counts)"
  let la ← s.flag "penalty for the 10% rule (lampam)"
  let pb ← s.flag "penalty for balance"
  let pi ← s.flag "penalty for in-plane orthotropy"
  let ci ← s.float "coeff for in-plane orthotropy/balance penalty"
  let co ← s.float "coeff for out-of plane orthotropy penalty"
  let c10 ← s.float "coeff for the 10% rule penalty"
  let gmin ← s.int "minimum group size"
  let gmax ← s.ints "maximum group size"
  let sens ← twelveOf s ["first_level_sensitivities[1]", "first_level_sensitivities[2]", "first_level_sensitivities[3]",
    "first_level_sensitivities[4]", "first_level_sensitivities[5]", "first_level_sensitivities[6]", "first_level_sensitivities[7]",
    "first_level_sensitivities[8]", "first_level_sensitivities[9]", "first_level_sensitivities[10]",
    "first_level_sensitivities[11]", "first_level_sensitivities[12]"]
  let mask ← twelveOf s ["lampam_to_be_optimised[1]", "lampam_to_be_optimised[2]", "lampam_to_be_optimised[3]",
    "lampam_to_be_optimised[4]", "lampam_to_be_optimised[5]", "lampam_to_be_optimised[6]", "lampam_to_be_optimised[7]",
    "lampam_to_be_optimised[8]", "lampam_to_be_optimised[9]", "lampam_to_be_optimised[10]", "lampam_to_be_optimised[11]",
    "lampam_to_be_optimised[12]"]
  return {
    nOuter := .int nOuter, coeff10 := .float c10, coeffBalIpo := .float ci, coeffOopo := .float co, groupSizeMin := .int gmin
    groupSizeMax := .array (gmax.map (fun (z : Int) => (z : ℚ))), sensitivities := sens, optimised := mask
    globalNodeLimit := .int g, globalNodeLimitP := .int gp, localNodeLimit := .int l, localNodeLimitFinal := .int lf
    membrane := .bool me, flexural := .bool fl, pA := .float pA, nD1 := .int d1, nD2 := .int d2, nD3 := .int d3
    pen10Lampam := .bool la, pen10Pc := .bool pc, penBal := .bool pb, penIpo := .bool pi }

end Bella.Spec
