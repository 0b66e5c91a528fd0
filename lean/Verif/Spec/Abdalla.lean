import Verif.Spec.Weights
import Mathlib.Data.Real.Sqrt
/-
Specification vocabulary: the 10% rule of Abdalla, on the first two in-plane lamination parameters.
-/
namespace Spec

/-- The points that are the first two in-plane lamination parameters of some (smeared) laminate. -/
def LaminateRegion (x y : ℝ) : Prop := 2 * x ^ 2 - 1 ≤ y ∧ y ≤ 1

/-- The region of the rule: the points that are a mixture of a share `4 p` of quasi-isotropic material (0, 45, 90 and -45 in equal
shares, lamination parameters zero) and a share `1 - 4 p` of any laminate. -/
def AbdallaRegion (p x y : ℝ) : Prop :=
  ∃ x' y', LaminateRegion x' y' ∧ x = (1 - 4 * p) * x' ∧ y = (1 - 4 * p) * y'

/-- A laminate has a share of at least `p` of 0 plies, of 90 plies, and of `2 p` of ±45 plies. -/
def PlyShares (p : ℝ) (ss : List ℤ) : Prop :=
  p * ss.length ≤ ss.count 0 ∧ p * ss.length ≤ ss.count 90 ∧ 2 * p * ss.length ≤ ss.count 45 + ss.count (-45)

/-- Distance between two points of the plane. -/
noncomputable def euclid (x y x' y' : ℝ) : ℝ := Real.sqrt ((x - x') ^ 2 + (y - y') ^ 2)

/-- The `num` abscissae of each curve: equally spaced from `-√q` to `√q`. -/
def AbdallaAbscissa (q : ℝ) (num : Nat) (t : ℝ) : Prop :=
  ∃ k : Nat, k < num ∧ t = - Real.sqrt q + k * (2 * Real.sqrt q / (num - 1))

/-- The points of the two curves with which the code represents the boundary of the region (`q = 1 - 4 p`): the parabola
`y = 2 (x / q)² - q` and the line `y = q`. -/
def AbdallaCurves (q : ℝ) (num : Nat) (x y : ℝ) : Prop := AbdallaAbscissa q num x ∧ (y = 2 * (x / q) ^ 2 - q ∨ y = q)

end Spec
