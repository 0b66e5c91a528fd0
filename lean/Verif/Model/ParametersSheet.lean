import Verif.Model.InputFile
import Verif.Model.Parameters
/-
Model of `save_parameters_BELLA` (src/BELLA/save_set_up.py).  As in Model/InputFile.lean a sheet is a list of labelled cells, and the
workbook itself is not modelled.
-/
namespace Bella

/-- A cell made of a Python object; an object that is neither a number nor a Boolean (the time limits are not tested by the constructor)
is replaced by an empty cell. -/
def objCell : PyObj → Cell
  | .int z => .num z
  | .float q => .num q
  | .bool b => .flag b
  | .other _ => .ints []

/-- save_set_up.py 249-303 `save_parameters_BELLA`. -/
def saveParams (p : Params) : Sheet :=
  [ ("number of initial ply drops", .num p.nIniPlyDrops),
    ("minimum group size", .num p.groupSizeMin),
    ("maximum group size", .num p.groupSizeMax),
    ("time_limit_group_pdl", objCell p.timeGroup),
    ("time_limit_all_pdls", objCell p.timeAll),
    ("global_node_limit", .num p.globalNodeLimit),
    ("global_node_limit_final", .num p.globalNodeLimitFinal),
    ("local_node_limit", .num p.localNodeLimit),
    ("local_node_limit_final", .num p.localNodeLimitFinal),
    ("input number of plies in reference panel", .num p.nPliesRef),
    ("repair_membrane_switch", .flag p.membrane),
    ("repair_flexural_switch", .flag p.flexural),
    ("p_A", .num p.pA),
    ("n_D1", .num p.nD1),
    ("n_D2", .num p.nD2),
    ("n_D3", .num p.nD3),
    ("global_node_limit2", .num p.globalNodeLimit2),
    ("local_node_limit2", .num p.localNodeLimit2),
    ("global_node_limit3", .num p.globalNodeLimit3),
    ("local_node_limit3", .num p.localNodeLimit3) ]

end Bella
