import Verif.Model.Constraints
/-
Model of the remaining functions of src/RELAY/repair_tools.py and of `is_equal` of src/RELAY/repair_10_bal.py.

Exact rationals instead of floating-point numbers; angles are integers.
-/
namespace Bella

/-- repair_tools.py 62-66 `calc_delta_angle`. -/
def calcDeltaAngle (a1 a2 : Int) : Int := min (min |a2 - a1| |180 + a2 - a1|) |a2 - 180 - a1|

/-- repair_tools.py 86-89 and 94-97: the position of a ply counted from the nearest face. -/
def facePosition (i n : Int) : Int := if (i : ℚ) < (n : ℚ) / 2 then i else n - i - 1

/-- repair_tools.py 91-97: the second position. -/
def otherPosition (n : Int) : Option Int → ℚ
  | none => (n : ℚ) / 2
  | some j => facePosition j n

/-- repair_tools.py 78-98 `calc_distanciation`; a division by zero raises. -/
def calcDistanciation (i n : Int) (j : Option Int := none) : Py ℚ :=
  if n = 0 then .error .zeroDivision else .ok (2 * |(facePosition i n : ℚ) - otherPosition n j| / n)

/-- repair_tools.py 31-59 `objective_repair`. -/
def objectiveRepair (delta : ℚ) (i j n : Int) (statusBal cBal cDelta cPos : ℚ) : Py ℚ := do
  let d ← calcDistanciation i n (some j)
  return - cBal * statusBal + cDelta * delta / 180 + cPos * d

/-- `np.isclose(a, b).all()` for arrays of integers: an array of one entry is compared with every entry of the other, arrays of other
different sizes raise.  Integers of at most 1000 that differ are never close. -/
def iscloseAll (a b : Stack) : Py Bool :=
  if a.length = b.length then .ok (decide (a = b))
  else match a, b with
    | [x], _ => .ok (b.all (fun (y : Int) => x == y))
    | _, [y] => .ok (a.all (fun (x : Int) => x == y))
    | _, _ => .error .valueError

/-- `a[mask]` for a mask computed from the entries of `ss`; the arrays must have the same size. -/
def maskOf (p : Int → Bool) (ss a : Stack) : Py Stack :=
  if ss.length = a.length then .ok (((ss.zip a).filter (fun (x : Int × Int) => p x.1)).map (fun (x : Int × Int) => x.2))
  else .error .indexError

/-- repair_10_bal.py 525-541 `is_equal` (`2*ply_queue` repeats the Python list). -/
def isEqualStack (ss queue ssIni : Stack) (sym : Bool) : Py Bool := do
  let known ← maskOf (fun (x : Int) => x != 666) ss ssIni
  let same ← iscloseAll (ss.filter (fun (x : Int) => x != 666)) known
  if !same then return false
  else do
    let missing ← maskOf (fun (x : Int) => x == 666) ss ssIni
    iscloseAll ((if sym then queue ++ queue else queue).insertionSort (· ≤ ·)) (missing.insertionSort (· ≤ ·))

end Bella
