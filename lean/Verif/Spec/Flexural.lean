import Verif.Spec.Lampam
import Mathlib.Algebra.BigOperators.Intervals
/-
The out-of-plane objective of a laminate: weighted squared distance of its four out-of-plane
lamination parameters to their targets.  `cs a k` is the `k`-th of the four trigonometric functions of the
ply angle `a`.
-/
namespace Spec

def flexObjective (cs : Int → Nat → ℚ) (coeffs target : Nat → ℚ) (ss : List Int) : ℚ :=
  ∑ k ∈ Finset.range 4, coeffs k * (lampamD (fun a => cs a k) ss - target k) ^ 2

end Spec
