import Verif.Model.ParametersSheet
/-
What the sheet Parameters written by BELLA says: the arguments of the constructor of parameters that it records.  The repository has no
program that reads this sheet; each argument is the cell with its name.
-/
namespace Bella.Spec

/-- The arguments of `Parameters` recorded on a sheet. -/
def parsOf (s : Sheet) : Py ParArgs := do
  let n ← s.int "number of initial ply drops"
  let gmin ← s.int "minimum group size"
  let gmax ← s.int "maximum group size"
  let t1 ← s.float "time_limit_group_pdl"
  let t2 ← s.float "time_limit_all_pdls"
  let g ← s.int "global_node_limit"
  let gf ← s.int "global_node_limit_final"
  let l ← s.int "local_node_limit"
  let lf ← s.int "local_node_limit_final"
  let r ← s.float "input number of plies in reference panel"
  let me ← s.flag "repair_membrane_switch"
  let fl ← s.flag "repair_flexural_switch"
  let pA ← s.float "p_A"
  let d1 ← s.int "n_D1"
  let d2 ← s.int "n_D2"
  let d3 ← s.int "n_D3"
  let g2 ← s.int "global_node_limit2"
  let l2 ← s.int "local_node_limit2"
  let g3 ← s.int "global_node_limit3"
  let l3 ← s.int "local_node_limit3"
  return {
    groupSizeMin := .int gmin, groupSizeMax := .int gmax, globalNodeLimit := .int g, localNodeLimit := .int l
    localNodeLimitFinal := .int lf, globalNodeLimitFinal := .int gf, globalNodeLimit2 := .int g2, localNodeLimit2 := .int l2
    globalNodeLimit3 := .int g3, localNodeLimit3 := .int l3, nIniPlyDrops := .int n, pA := .float pA, nD1 := .int d1, nD2 := .int d2
    nD3 := .int d3, membrane := .bool me, flexural := .bool fl, nPliesRef := .float r, timeGroup := .float t1, timeAll := .float t2 }

end Bella.Spec
