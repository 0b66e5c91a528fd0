import Mathlib.Algebra.BigOperators.Intervals
import Mathlib.Algebra.Order.Ring.Rat
/-
The objective functions as formulas.
-/
namespace Spec

/-- `Σ_i w_i (x_i - y_i)²`. -/
def sqDist (w x y : List ℚ) : ℚ :=
  ∑ i ∈ Finset.range x.length, w.getD i 0 * (x.getD i 0 - y.getD i 0) ^ 2

/-- `Σ_i w_i |x_i - y_i|`. -/
def absDist (w x y : List ℚ) : ℚ :=
  ∑ i ∈ Finset.range x.length, w.getD i 0 * |x.getD i 0 - y.getD i 0|

/-- Objective of a panel multiplied by `1 + coefficient * penalty` for every guideline. -/
def penalised (w o : ℚ) (pens : List (ℚ × ℚ)) : ℚ :=
  w * o * (pens.map (fun cp => 1 + cp.1 * cp.2)).prod

end Spec
