import Verif.Model.Panels
import Verif.Model.Parameters
/-
Model of src/LAYLA_V02/parameters.py (the constructor of `Parameters` and `weights_calculation`) and of
src/LAYLA_V02/targets.py (`filter_target_lampams`).

Exact rationals instead of floating-point numbers.  An argument is a Python object (`PyObj`); the arguments
`first_level_sensitivities` and `lampam_to_be_optimised` are one-dimensional arrays of numbers, `group_size_max` is an `int` or
such an array.  The attribute `type_obj_func` (stored without a test, line 45), the side effect on the constraint object of line
81 and the texts of the messages are not modelled.
-/
namespace Bella

/-- The argument `group_size_max`, parameters.py 24 and 186-187. -/
inductive GroupMax where
  | int (z : Int)
  | array (l : List ℚ)
  deriving DecidableEq, Repr

/-- The arguments of `Parameters`, parameters.py 17-42. -/
structure LaylaParArgs where
  nOuter : PyObj := .int 1
  coeff10 : PyObj := .int 0
  coeffBalIpo : PyObj := .int 1
  coeffOopo : PyObj := .int 1
  groupSizeMin : PyObj := .int 6
  groupSizeMax : GroupMax := .array [8]
  sensitivities : List ℚ := List.replicate 12 1
  optimised : List ℚ := List.replicate 12 1
  globalNodeLimit : PyObj := .int 100
  globalNodeLimitP : PyObj := .int 10
  localNodeLimit : PyObj := .int 1000
  localNodeLimitFinal : PyObj := .int 1000
  membrane : PyObj := .bool true
  flexural : PyObj := .bool true
  pA : PyObj := .int 100
  nD1 : PyObj := .int 6
  nD2 : PyObj := .int 10
  nD3 : PyObj := .int 1
  pen10Lampam : PyObj := .bool false
  pen10Pc : PyObj := .bool false
  penBal : PyObj := .bool false
  penIpo : PyObj := .bool false
  deriving DecidableEq, Repr

/-- The attributes of `Parameters`; `none`: an array of NaN. -/
structure LaylaParams where
  nOuter : Int
  pen10Pc : Bool
  pen10Lampam : Bool
  coeff10 : ℚ
  penBal : Bool
  penIpo : Bool
  coeffBalIpo : ℚ
  coeffOopo : ℚ
  membrane : Bool
  flexural : Bool
  pA : ℚ
  nD1 : Int
  nD2 : Int
  nD3 : Int
  groupSizeMin : Int
  groupSizeMax : List Int
  globalNodeLimit : Int
  globalNodeLimitP : Int
  localNodeLimit : Int
  localNodeLimitFinal : Int
  weightsIni : List ℚ
  weights : Option (List ℚ)
  weightsA : Option (List ℚ)
  weightsD : Option (List ℚ)
  deriving DecidableEq, Repr

/-- numpy `a * b` for one-dimensional arrays: an array of one component is used for all the components of the other. -/
def npMul (a b : List ℚ) : Py (List ℚ) :=
  if a.length = b.length then .ok (List.zipWith (fun (x y : ℚ) => x * y) a b)
  else match a, b with
    | [x], _ => .ok (b.map (fun (y : ℚ) => x * y))
    | _, [y] => .ok (a.map (fun (x : ℚ) => x * y))
    | _, _ => .error .valueError

/-- parameters.py 315-332: the weightings set to zero. -/
def laylaDrop (c : Cons) (ini : List ℚ) : Py (List ℚ) := do
  let opti := List.replicate 12 (1 : ℚ)
  let opti := if c.sym then npSetSlice opti 4 8 0 else opti
  let opti ← if c.standardAngles then npSets opti [3, 7, 11] 0 else .ok opti
  let w ← npMul ini opti
  let w ← if c.ipo then npSets w [2, 3] 0 else .ok w
  if c.oopo then npSets w [10, 11] 0 else .ok w

/-- parameters.py 335-356: the weightings of the orthotropy requirements, `ci` being `s*coeff_bal_ipo` and `co` `s*coeff_oopo`. -/
def laylaPenaltyWeights (c : Cons) (sw : Bool) (ci co : ℚ) (w : List ℚ) : Py (List ℚ) :=
  if c.ipo = true ∧ sw = true ∧ c.oopo = true then
    if c.standardAngles = true then do
      let w ← npSet w 2 ci
      npSet w 10 co
    else do
      let w ← npSets w [2, 3] ci
      npSets w [10, 11] co
  else if c.ipo = true ∧ sw = true then
    if c.standardAngles = true then do
      let w ← npSet w 2 ci
      npSet w 10 co
    else npSets w [2, 3] ci
  else if c.oopo = true then
    if c.standardAngles = true then npSet w 10 co else npSets w [10, 11] co
  else .ok w

/-- parameters.py 300-359 `weights_calculation`: the final weightings (`none`: an array of NaN, when the average of line 333 is
taken over no component, or when the weightings, which are not negative, are all zero) and the initial ones. -/
def laylaWeights (c : Cons) (sw : Bool) (coeffIpo coeffOopo : ℚ) (sens mask : List ℚ) : Py (Option (List ℚ) × List ℚ) := do
  let w ← npMul sens mask
  (if w.sum = 0 then Except.error (.exc "objective function lamination parameter weightings are all 0s") else .ok ())
  let ini := w.map (fun (x : ℚ) => x / w.sum)
  let w ← laylaDrop c ini
  match npAverage (w.filter (fun (x : ℚ) => x ≠ 0)) with
  | none => return (none, ini)
  | some s => do
    let w ← laylaPenaltyWeights c sw (s * coeffIpo) (s * coeffOopo) w
    return (if w.sum = 0 then none else some (w.map (fun (x : ℚ) => x / w.sum)), ini)

/-- parameters.py 285-290 and 292-297: the weightings `l` of the in-plane or out-of-plane lamination parameters, normalised unless
they are all within `1e-8` of zero (`np.isclose`); a sum of zero gives NaN. -/
def laylaPart (l : List ℚ) : Option (List ℚ) :=
  if l.all (fun (x : ℚ) => |x| ≤ 1 / 10 ^ 8) = true then some l
  else if l.sum = 0 then none else some (l.map (fun (x : ℚ) => x / l.sum))

/-- Truncation towards zero (`astype(int)`). -/
def truncQ (x : ℚ) : Int := if 0 ≤ x then x.floor else x.ceil

/-- Python's truth value of an argument. -/
def PyObj.truth : PyObj → Bool
  | .int z => z ≠ 0
  | .float q => q ≠ 0
  | .bool b => b
  | .other _ => true

/-- The pattern of parameters.py 74-80, 112-119 and 131-138: a number that is not negative. -/
def needNonneg (x : PyObj) : Py ℚ := do
  let q ← needNumber x
  if q < 0 then .error (.exc "must be a positive") else .ok q

/-- parameters.py 56-81: the switches and the coefficient of the penalty for the 10% rule. -/
def laylaPen10 (c : Cons) (a : LaylaParArgs) : Py (Bool × Bool × ℚ) :=
  if c.rule10 = true then do
    let pc ← needBool a.pen10Pc
    let la ← needBool a.pen10Lampam
    let co ← needNonneg a.coeff10
    return (pc, la, co)
  else .ok (false, false, 0)

/-- parameters.py 87-95: the switch of the penalty for balance. -/
def laylaPenBal (c : Cons) (a : LaylaParArgs) : Py Bool := if c.bal = true then needBool a.penBal else .ok false

/-- parameters.py 97-119: the switch and the coefficient of the penalty for in-plane orthotropy. -/
def laylaPenIpo (c : Cons) (a : LaylaParArgs) : Py (Bool × ℚ) :=
  if c.ipo = true then do
    let sw ← needBool a.penIpo
    let co ← needNonneg a.coeffBalIpo
    return (sw, co)
  else .ok (false, 0)

/-- parameters.py 125-138: the coefficient of the penalty for out-of-plane orthotropy. -/
def laylaCoeffOopo (c : Cons) (a : LaylaParArgs) : Py ℚ := if c.oopo = true then needNonneg a.coeffOopo else .ok 0

/-- parameters.py 186-187: the maximum group sizes, an `int` being repeated for each outer loop. -/
def GroupMax.values (g : GroupMax) (nOuter : Int) : List ℚ :=
  match g with
  | .int z => List.replicate nOuter.toNat (z : ℚ)
  | .array l => l

/-- parameters.py 17-297 `Parameters.__init__`, in the order of the tests (the truth value of an object that is neither a number
nor a Boolean, lines 83 and 121, is taken to be true). -/
def mkLaylaParams (c : Cons) (a : LaylaParArgs) : Py LaylaParams := do
  let nOuter ← needPositive a.nOuter
  let pen10 ← laylaPen10 c a
  (if (a.pen10Pc.truth && a.pen10Lampam.truth) = true then
    Except.error (.exc "You cannot use both penalties on ply counts and on lampam for the 10% rule!") else .ok ())
  let penBal ← laylaPenBal c a
  let penIpo ← laylaPenIpo c a
  (if (a.penIpo.truth && a.penBal.truth) = true then
    Except.error (.exc "You cannot use both the penalties for balance and in-plane orthotropy!") else .ok ())
  let coeffOopo ← laylaCoeffOopo c a
  let me ← needBool a.membrane
  let fl ← needBool a.flexural
  let pA ← needNumber a.pA
  (if 0 ≤ pA ∧ pA ≤ 100 then Except.ok () else .error (.exc "p_A must be between 0 and 100"))
  let d1 ← needInt a.nD1
  let d2 ← needInt a.nD2
  let d3 ← needInt a.nD3
  let gmin ← needPositive a.groupSizeMin
  (if gmin < c.nContig then Except.error (.exc "group_size_min must be at least equal to n_contiguity!") else .ok ())
  let gmax := a.groupSizeMax.values nOuter
  (if gmax.any (fun (x : ℚ) => (gmin : ℚ) > x) = true then
    Except.error (.exc "group_size_min must smaller than group_size_max") else .ok ())
  (if (gmax.length : Int) < nOuter then
    Except.error (.exc "group_size_max should have as many elements as the number of outer loops") else .ok ())
  let g ← needPositive a.globalNodeLimit
  let gp ← needPositive a.globalNodeLimitP
  let l ← needPositive a.localNodeLimit
  let lf ← needPositive a.localNodeLimitFinal
  (if a.sensitivities.any (fun (x : ℚ) => x < 0) = true then
    Except.error (.exc "the elements of first_level_sensitivities must be positive") else .ok ())
  (if a.optimised.any (fun (x : ℚ) => x ≠ 0 && x ≠ 1) = true then
    Except.error (.exc "the elements of lampam_to_be_optimised must be either 0 or 1") else .ok ())
  let w ← laylaWeights c penIpo.1 penIpo.2 coeffOopo a.sensitivities a.optimised
  return {
    nOuter := nOuter, pen10Pc := pen10.1, pen10Lampam := pen10.2.1, coeff10 := pen10.2.2, penBal := penBal, penIpo := penIpo.1
    coeffBalIpo := penIpo.2, coeffOopo := coeffOopo, membrane := me, flexural := fl, pA := pA, nD1 := d1, nD2 := d2, nD3 := d3
    groupSizeMin := gmin, groupSizeMax := gmax.map truncQ, globalNodeLimit := g, globalNodeLimitP := gp, localNodeLimit := l
    localNodeLimitFinal := lf, weightsIni := w.2, weights := w.1
    weightsA := w.1.bind (fun (l : List ℚ) => laylaPart (l.take 4))
    weightsD := w.1.bind (fun (l : List ℚ) => laylaPart ((l.take 12).drop 8)) }

/-- targets.py 24-41 `filter_target_lampams`. -/
def laylaFilterTarget (c : Cons) (t : List ℚ) : Py (List ℚ) := do
  let t := if c.sym then npSetSlice t 4 8 0 else t
  let t ← if c.ipo then npSets t [2, 3] 0 else .ok t
  if c.oopo then npSets t [10, 11] 0 else .ok t

end Bella
