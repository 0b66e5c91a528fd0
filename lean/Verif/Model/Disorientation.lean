import Verif.Model.Basic
/-
Model of src/guidelines/disorientation.py
-/
namespace Bella

/-- disorientation.py 64-76 `is_diso`. -/
def isDiso (angle1 angle2 deltaAngle : Int) : Bool :=
  if (angle1 - angle2).natAbs > deltaAngle ∧
     (180 + angle1 - angle2).natAbs > deltaAngle ∧
     (angle1 - angle2 - 180).natAbs > deltaAngle then
    false
  else
    true

/-- disorientation.py 79-99 `is_diso_ss`.  The `for … return False` loops are `List.all` over the
same index range; `range(negative)` is empty as truncated subtraction is. -/
def isDisoSs (ss : Stack) (deltaAngle : Int) (damTol : Bool)
    (damTolRule : Option Int) (nPliesDamTol : Option Int) : Py Bool :=
  if damTol then
    if (damTolRule = some 2 ∨ damTolRule = some 3) ∨ nPliesDamTol = some 2 then
      if (List.range (ss.length - 3)).all
          (fun i => isDiso (nth ss (i + 1)) (nth ss (i + 2)) deltaAngle) then
        -- lines 93-94 cannot fire here as one of the two arguments is not None
        .ok true
      else .ok false
    else if damTolRule = none ∧ nPliesDamTol = none then
      .error (.exc "Not enough input arugments!")
    else .ok true
  else
    .ok ((List.range (ss.length - 1)).all
      (fun i => isDiso (nth ss i) (nth ss (i + 1)) deltaAngle))

/-- disorientation.py 174-196 `calc_penalty_diso_mp_0`, the row of one panel.
`np.zeros((size - 1,))` raises `ValueError` for an empty stack. -/
def violaDisoRow (ss : Stack) (deltaAngle : Int) : Py (List Bool) :=
  if ss.length = 0 then .error .valueError
  else .ok ((List.range (ss.length - 1)).map
    (fun i => ! isDiso (nth ss i) (nth ss (i + 1)) deltaAngle))

/-- `np.sum` of a boolean vector. -/
def countTrue (l : List Bool) : Nat := l.countP (fun b => b)

/-- numpy `el[1:-1]`. -/
def trimEnds (ss : Stack) : Stack := (ss.drop 1).dropLast

/-- disorientation.py 209-215 / 229-235 and contiguity.py 311-317 / 332-338: removal of the
surface plies under the two-ply damage tolerance rules. -/
def trimDamTol (ss : Stack) (damTol : Bool) (attr : DamTolAttr) : Stack :=
  if damTol then (if attr.twoPlies then trimEnds ss else ss) else ss

/-- disorientation.py 219-236 `calc_n_penalty_diso_ss`. -/
def calcNPenaltyDisoSs (ss : Stack) (deltaAngle : Int) (damTol : Bool) (attr : DamTolAttr) :
    Py Nat := do
  let row ← violaDisoRow (trimDamTol ss damTol attr) deltaAngle
  return countTrue row

/-- disorientation.py 199-217 `calc_number_violations_diso_mp`. -/
def calcNumberViolationsDisoMp (ss : List Stack) (deltaAngle : Int) (damTol : Bool)
    (attr : DamTolAttr) : Py (List Nat) :=
  ss.mapM (fun el => calcNPenaltyDisoSs el deltaAngle damTol attr)

end Bella
