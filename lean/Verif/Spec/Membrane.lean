import Verif.Spec.Repair
import Mathlib.Algebra.BigOperators.Intervals
import Mathlib.Algebra.Order.Ring.Rat
/-
In-plane lamination parameters of a laminate with a given ply content, and the in-plane objective.
`cs a k` is the `k`-th of the four trigonometric functions of the ply angle `a`.
-/
namespace Spec

/-- In-plane lamination parameter number `k` of a laminate of `n` plies with the given ply content: the average of
the trigonometric function over the plies (their order does not matter). -/
def inPlane (cs : ℤ → ℕ → ℚ) (n : ℕ) (plies : List ℤ) (k : ℕ) : ℚ :=
  (plies.map (fun a => cs a k)).sum / n

/-- Weighted squared distance of the four in-plane lamination parameters to their targets. -/
def inPlaneObjective (coeffs target lam : ℕ → ℚ) : ℚ :=
  ∑ k ∈ Finset.range 4, coeffs k * (lam k - target k) ^ 2

end Spec
