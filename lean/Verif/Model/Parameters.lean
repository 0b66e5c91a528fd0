import Verif.Model.Constraints
/-
Model of src/BELLA/parameters.py: the constructor of `Parameters`.

The arguments are Python objects: an `int`, a `float` (exact rational), a `bool` (also an `int` for Python, of value 0 or 1),
or anything else, for which `np.around` raises or not.
-/
namespace Bella

/-- A Python object given as an argument. -/
inductive PyObj where
  | int (z : Int)
  | float (q : ℚ)
  | bool (b : Bool)
  | other (around : Bool)
  deriving DecidableEq, Repr

/-- The arguments of `Parameters`, parameters.py 15-38 (the time limits and the two `save_*` switches are stored without a test). -/
structure ParArgs where
  groupSizeMin : PyObj := .int 4
  groupSizeMax : PyObj := .int 12
  globalNodeLimit : PyObj := .int 100
  localNodeLimit : PyObj := .int 100
  localNodeLimitFinal : PyObj := .int 1
  globalNodeLimitFinal : PyObj := .int 5
  globalNodeLimit2 : PyObj := .int 10
  localNodeLimit2 : PyObj := .int 10
  globalNodeLimit3 : PyObj := .int 10
  localNodeLimit3 : PyObj := .int 10
  nIniPlyDrops : PyObj := .int 5
  pA : PyObj := .int 100
  nD1 : PyObj := .int 6
  nD2 : PyObj := .int 10
  nD3 : PyObj := .int 1
  membrane : PyObj := .bool true
  flexural : PyObj := .bool true
  nPliesRef : PyObj := .int 1000
  timeGroup : PyObj := .int 1
  timeAll : PyObj := .int 100
  deriving DecidableEq, Repr

/-- The attributes of `Parameters`. -/
structure Params where
  groupSizeMin : Int
  groupSizeMax : Int
  globalNodeLimit : Int
  localNodeLimit : Int
  localNodeLimitFinal : Int
  globalNodeLimitFinal : Int
  globalNodeLimit2 : Int
  localNodeLimit2 : Int
  globalNodeLimit3 : Int
  localNodeLimit3 : Int
  nIniPlyDrops : Int
  pA : ℚ
  nD1 : Int
  nD2 : Int
  nD3 : Int
  membrane : Bool
  flexural : Bool
  nPliesRef : ℚ
  timeGroup : PyObj
  timeAll : PyObj
  deriving DecidableEq, Repr

/-- `np.around(x)` before the test of the type: the value for an `int`, an exception for some objects. -/
def npAround : PyObj → Py Unit
  | .other false => .error .typeError
  | _ => .ok ()

/-- `isinstance(x, int)`, otherwise `ParametersDefinitionError`. -/
def needInt : PyObj → Py Int
  | .int z => .ok z
  | .bool b => .ok (if b then 1 else 0)
  | _ => .error (.exc "must be an integer")

/-- parameters.py 48-54 and the same pattern at 70-76, 82-110, 171-181 and 187-197: an integer of at least 1. -/
def needPositive (x : PyObj) : Py Int := do
  npAround x
  let z ← needInt x
  if z < 1 then .error (.exc "must be strictly positive") else .ok z

/-- `isinstance(x, (int, float))`, otherwise `ParametersDefinitionError`. -/
def needNumber : PyObj → Py ℚ
  | .int z => .ok z
  | .float q => .ok q
  | .bool b => .ok (if b then 1 else 0)
  | _ => .error (.exc "must be a number")

/-- `isinstance(x, bool)`, otherwise `ParametersDefinitionError`. -/
def needBool : PyObj → Py Bool
  | .bool b => .ok b
  | _ => .error (.exc "should be a boolean value")

/-- parameters.py 15-197 `Parameters.__init__`, in the order of the tests. -/
def mkParams (a : ParArgs) : Py Params := do
  let gmin ← needPositive a.groupSizeMin
  let gmax ← needInt a.groupSizeMax
  (if gmin > gmax then Except.error (.exc "group_size_min must smaller than group_size_max") else .ok ())
  let nIni ← needPositive a.nIniPlyDrops
  let g ← needPositive a.globalNodeLimit
  let gf ← needPositive a.globalNodeLimitFinal
  let l ← needPositive a.localNodeLimit
  let lf ← needPositive a.localNodeLimitFinal
  let ref ← needNumber a.nPliesRef
  let me ← needBool a.membrane
  let fl ← needBool a.flexural
  let pA ← needNumber a.pA
  (if 0 ≤ pA ∧ pA ≤ 100 then Except.ok () else .error (.exc "p_A must be between 0 and 100"))
  let d1 ← needInt a.nD1
  let d2 ← needInt a.nD2
  let d3 ← needInt a.nD3
  let g2 ← needPositive a.globalNodeLimit2
  let l2 ← needPositive a.localNodeLimit2
  let g3 ← needPositive a.globalNodeLimit3
  let l3 ← needPositive a.localNodeLimit3
  return {
    groupSizeMin := gmin, groupSizeMax := gmax, globalNodeLimit := g, localNodeLimit := l, localNodeLimitFinal := lf
    globalNodeLimitFinal := gf, globalNodeLimit2 := g2, localNodeLimit2 := l2, globalNodeLimit3 := g3, localNodeLimit3 := l3
    nIniPlyDrops := nIni, pA := pA, nD1 := d1, nD2 := d2, nD3 := d3, membrane := me, flexural := fl, nPliesRef := ref
    timeGroup := a.timeGroup, timeAll := a.timeAll }

end Bella
