import Mathlib.Algebra.BigOperators.Group.List.Basic
import Mathlib.Data.Rat.Defs
import Mathlib.Algebra.Order.Ring.Rat
/-
Specification vocabulary: lamination parameters.  `c a` stands for one of the four trigonometric
functions of the ply angle `a` (cos 2a, cos 4a, sin 2a, sin 4a).
-/
namespace Spec

/-- Normalised height of the interface number `i` of a laminate of `n` plies (from -1 to 1). -/
def height (n : Nat) (i : Nat) : ℚ := -1 + 2 * (i : ℚ) / (n : ℚ)

/-- In-plane lamination parameter of a laminate: half the integral of `c` over the thickness. -/
def lampamA (c : Int → ℚ) (ss : List Int) : ℚ :=
  (ss.zipIdx.map (fun p => c p.1 * (height ss.length (p.2 + 1) - height ss.length p.2))).sum / 2

/-- Coupling lamination parameter (`∫ c z dz`, scaled as in the code). -/
def lampamB (c : Int → ℚ) (ss : List Int) : ℚ :=
  (ss.zipIdx.map (fun p =>
    c p.1 * (height ss.length (p.2 + 1) ^ 2 - height ss.length p.2 ^ 2))).sum / 2

/-- Out-of-plane lamination parameter: `(3/2) ∫ c z² dz`. -/
def lampamD (c : Int → ℚ) (ss : List Int) : ℚ :=
  (ss.zipIdx.map (fun p =>
    c p.1 * (height ss.length (p.2 + 1) ^ 3 - height ss.length p.2 ^ 3))).sum / 2

end Spec
