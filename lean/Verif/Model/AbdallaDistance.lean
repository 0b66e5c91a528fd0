import Verif.Model.Constraints
import Mathlib.Analysis.SpecialFunctions.Trigonometric.Basic
import Mathlib.Data.Real.Sqrt
/-
src/guidelines/ten_percent_rule_Abdalla.py: distance to the lamination-parameter region of the 10% rule, over the reals (square roots).
-/
namespace Bella

/-- ten_percent_rule_Abdalla.py 28-44 `calc_distance_2_points` (Euclidean norm). -/
noncomputable def distance2 (p1 p2 : ℝ × ℝ) : ℝ := Real.sqrt ((p1.1 - p2.1) ^ 2 + (p1.2 - p2.2) ^ 2)

/-- `np.linspace(lo, hi, num)`: `num` equally spaced points, ends included. -/
noncomputable def linspace (lo hi : ℝ) (num : Nat) : List ℝ :=
  (List.range num).map (fun k : Nat => lo + (k : ℝ) * ((hi - lo) / ((num : ℝ) - 1)))

/-- Python `min` of a list of numbers (an exception for an empty one). -/
noncomputable def pyMinR : List ℝ → Py ℝ
  | [] => .error .valueError
  | x :: xs => .ok (xs.foldl min x)

/-- ten_percent_rule_Abdalla.py 80-83 `point_parabola_Abdalla`; `q` is `1 - 4 * percent_Abdalla`. -/
noncomputable def pointParabola (q lp1 : ℝ) : ℝ × ℝ := (lp1, 2 * (lp1 / q) ^ 2 - q)

/-- ten_percent_rule_Abdalla.py 85-87 `point_straight_curve_Abdalla`. -/
def pointStraight (q lp1 : ℝ) : ℝ × ℝ := (lp1, q)

open Classical in
/-- ten_percent_rule_Abdalla.py 46-100 `calc_distance_Abdalla`: zero inside the region (lines 69-73), otherwise the smallest distance to
`num` points of the two curves bounding it (75-100).  Nothing (`None`) is returned when the rule is off. -/
noncomputable def calcDistanceAbdalla (c : Cons) (lp1 lp2 : ℝ) (num : Nat := 10000) : Py (Option ℝ) :=
  if c.rule10 = true ∧ c.rule10Abdalla = true then
    let q : ℝ := 1 - 4 * ((c.pAbdalla : ℚ) : ℝ)
    if q ^ 2 + q * lp2 - 2 * lp1 ^ 2 + 1 / 10 ^ 15 > 0 ∧ q - lp2 + 1 / 10 ^ 15 > 0 then .ok (some 0)
    else do
      let pts := linspace (- Real.sqrt q) (Real.sqrt q) num
      let min1 ← pyMinR (pts.map (fun t : ℝ => distance2 (lp1, lp2) (pointParabola q t)))
      let min2 ← pyMinR (pts.map (fun t : ℝ => distance2 (lp1, lp2) (pointStraight q t)))
      pure (some (min min1 min2))
  else .ok none

open Classical in
/-- ten_percent_rule.py 100-108 `is_ten_percent_rule`, lamination-parameter variant, over the reals (`isTenPercentAbdalla` is the
rational one). -/
noncomputable def isTenPercentLPs (c : Cons) (lp1 lp2 : ℝ) : Bool :=
  let q : ℝ := 1 - 4 * ((c.pAbdalla : ℚ) : ℝ)
  if q ^ 2 + q * lp2 - 2 * lp1 ^ 2 + 1 / 10 ^ 15 < 0 then false
  else if q - lp2 + 1 / 10 ^ 15 < 0 then false
  else true

end Bella
