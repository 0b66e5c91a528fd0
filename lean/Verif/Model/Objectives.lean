import Verif.Model.Blending
/-
Models of src/BELLA/objectives.py, src/BELLA/obj_function.py and src/LAYLA_V02/objectives.py.
-/
namespace Bella

/-- objectives.py 50 `calc_obj_one_panel`: `weightings @ ((lampam - target)**2)`; numpy raises for
incompatible sizes (simplification: broadcasting of one-element arrays is not modelled). -/
def objOnePanel (lampam target weights : List ℚ) : Py ℚ :=
  if lampam.length = target.length ∧ weights.length = lampam.length then
    .ok (List.zipWith (· * ·) weights (List.zipWith (fun a b => (a - b) ^ 2) lampam target)).sum
  else .error .valueError

/-- LAYLA_V02/objectives.py 31-39: `type_obj_func` 2 or 1 (one laminate). -/
def laylaObjective (typeObj : Int) (lampam target weights : List ℚ) : Py ℚ :=
  if lampam.length = target.length ∧ weights.length = lampam.length then
    if typeObj = 2 then
      .ok (List.zipWith (· * ·) weights (List.zipWith (fun a b => (a - b) ^ 2) lampam target)).sum
    else if typeObj = 1 then
      .ok (List.zipWith (· * ·) weights (List.zipWith (fun a b => |a - b|) lampam target)).sum
    else .error (.exc "TYpe of objective function not recognised")
  else .error .valueError

/-- A penalty argument of `calc_obj_multi_panel`: `None`, a plain number (such as the default 0) or
an array with one entry per panel. -/
inductive Pen where
  | none
  | num (q : ℚ)
  | arr (l : List ℚ)
  deriving DecidableEq, Repr

/-- numpy broadcasting of `1 + coeff * penalty` to `n` panels (without `with_Nones`; `coeff * None`
raises). -/
def penFactors (n : Nat) (cp : ℚ × Pen) : Py (List ℚ) :=
  match cp.2 with
  | .none => .error .typeError
  | .num q => .ok (List.replicate n (1 + cp.1 * q))
  | .arr l =>
    if l.length = n then .ok (l.map (fun p => 1 + cp.1 * p)) else .error .valueError

/-- objectives.py 129-136: `calc_obj_multi_panel` without `with_Nones`; `pens` lists the six pairs
(coefficient, penalty) in the order of the code. -/
def objMultiPanel (weights objective : List ℚ) (pens : List (ℚ × Pen)) : Py ℚ :=
  if weights.length = objective.length then do
    let factors ← pens.mapM (penFactors weights.length)
    return (factors.foldl (fun acc f => List.zipWith (· * ·) acc f)
      (List.zipWith (· * ·) weights objective)).sum
  else .error .valueError

/-- objectives.py 142-168: the factor of panel `ind` for a penalty that may be an array or `None`.
A plain number has no attribute `size` and raises. -/
def penFactorAt (ind : Nat) (cp : ℚ × Pen) : Py ℚ :=
  match cp.2 with
  | .none => .ok 1
  | .num _ => .error .typeError
  | .arr l => do
    let p ← pyGet l (if l.length > 1 then ind else 0)
    return 1 + cp.1 * p

/-- objectives.py 170-174: the penalties for balance and weight are always indexed. -/
def penFactorIdx (ind : Nat) (cp : ℚ × Pen) : Py ℚ :=
  match cp.2 with
  | .none => .ok 1
  | .num _ => .error .typeError
  | .arr l => do
    let p ← pyGet l ind
    return 1 + cp.1 * p

/-- objectives.py 137-177: `calc_obj_multi_panel` with `with_Nones`: panels whose objective is `None`
are left out. `pens` are the penalties for disorientation, contiguity, 10% rule and out-of-plane
orthotropy, `idxPens` those for balance and weight. -/
def objMultiPanelNones (weights : List ℚ) (objective : List (Option ℚ)) (pens idxPens : List (ℚ × Pen)) :
    Py ℚ := do
  let terms ← (List.range weights.length).mapM (fun ind => do
    let o ← pyGet objective ind
    match o with
    | none => return 0
    | some o => do
      let w ← pyGet weights ind
      let f1 ← pens.mapM (penFactorAt ind)
      let f2 ← idxPens.mapM (penFactorIdx ind)
      return (f2.foldl (· * ·) (f1.foldl (· * ·) (w * o))))
  return terms.sum

/-- LAYLA_V02/objectives.py 53-79 `calc_obj_multi_ss`, one laminate. -/
def objMultiSs (objective p10 pBal pOopo c10 cBal cOopo : ℚ) : ℚ :=
  objective * (1 + c10 * p10) * (1 + cBal * pBal) * (1 + cOopo * pOopo)

/-- The penalty coefficients of an `ObjFunction` (obj_function.py). -/
structure ObjCoeffs where
  nModes : Int
  c10 : ℚ
  cBal : ℚ
  cOopo : ℚ
  cContig : ℚ
  cDiso : ℚ
  cSpacing : ℚ
  deriving DecidableEq, Repr

/-- Switches of the constraints read by obj_function.py. -/
structure ObjSwitches where
  rule10 : Bool
  bal : Bool
  oopo : Bool
  contig : Bool
  diso : Bool
  pdlSpacing : Bool
  deriving DecidableEq, Repr

/-- One of the tests of obj_function.py 35-98: the coefficient is 0 when the guideline is off, and
must not be negative otherwise. (Type tests are not modelled: arguments are numbers.) -/
def objCoeff (on : Bool) (c : ℚ) (msg : String) : Py ℚ :=
  if on then (if c < 0 then .error (.exc msg) else .ok c) else .ok 0

/-- obj_function.py 14-98 `ObjFunction.__init__`. -/
def mkObjFunction (s : ObjSwitches) (cDiso cContig c10 cBal cOopo cSpacing : ℚ) (nModes : Int) :
    Py ObjCoeffs := do
  (if nModes < 1 then Except.error (.exc "n_modes must be strictly positive") else .ok ())
  let c10' ← objCoeff s.rule10 c10 "10% rule"
  let cBal' ← objCoeff s.bal cBal "in-plane orthotropy"
  let cOopo' ← objCoeff s.oopo cOopo "out-of-plane orthotropy"
  let cContig' ← objCoeff s.contig cContig "contiguity"
  let cDiso' ← objCoeff s.diso cDiso "disorientation"
  let cSpacing' ← objCoeff s.pdlSpacing cSpacing "ply drop spacing"
  return ⟨nModes, c10', cBal', cOopo', cContig', cDiso', cSpacing'⟩

end Bella
