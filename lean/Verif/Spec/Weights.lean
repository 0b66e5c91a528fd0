import Verif.Spec.Layup
import Mathlib.Analysis.SpecialFunctions.Trigonometric.Basic
import Mathlib.Algebra.BigOperators.Intervals
/-
Specification vocabulary: the twelve lamination parameters (numbered from 0) of a laminate over the reals, and the weightings of
a panel.
-/
namespace Spec

/-- The trigonometric function of the lamination parameters `k`, `k + 4` and `k + 8`, of an angle in degrees. -/
noncomputable def trig (k : ℕ) (a : ℤ) : ℝ :=
  match k with
  | 0 => Real.cos (2 * (a * Real.pi / 180))
  | 1 => Real.cos (4 * (a * Real.pi / 180))
  | 2 => Real.sin (2 * (a * Real.pi / 180))
  | _ => Real.sin (4 * (a * Real.pi / 180))

/-- Normalised height (from -1 to 1) of the interface `i` of a laminate of `n` plies. -/
noncomputable def heightR (n i : ℕ) : ℝ := -1 + 2 * i / n

/-- Lamination parameter number `k`: in-plane (0 to 3), coupling (4 to 7) and out-of-plane (8 to 11), that is half the sum over the
plies of the trigonometric function times the difference of the first, second or third power of the heights of the faces. -/
noncomputable def lampamR (ss : List ℤ) (k : ℕ) : ℝ :=
  (∑ i ∈ Finset.range ss.length, trig (k % 4) (ss.getD i 0) *
    (heightR ss.length (i + 1) ^ (k / 4 + 1) - heightR ss.length i ^ (k / 4 + 1))) / 2

/-- The lamination parameters that vanish for every laminate allowed by the guidelines (`std`: the only angles are 0, ±45 and 90). -/
def Vanishing (sym bal std : Prop) (k : ℕ) : Prop :=
  (sym ∧ (k = 4 ∨ k = 5 ∨ k = 6 ∨ k = 7)) ∨ (std ∧ (k = 3 ∨ k = 7 ∨ k = 11)) ∨ (bal ∧ (k = 2 ∨ k = 3))

instance (sym bal std : Prop) [Decidable sym] [Decidable bal] [Decidable std] (k : ℕ) :
    Decidable (Vanishing sym bal std k) := by unfold Vanishing; infer_instance

/-- Out-of-plane orthotropy is requested through the lamination parameters 10 and 11. -/
def Oopo (oopo : Prop) (k : ℕ) : Prop := oopo ∧ (k = 10 ∨ k = 11)

instance (oopo : Prop) [Decidable oopo] (k : ℕ) : Decidable (Oopo oopo k) := by unfold Oopo; infer_instance

end Spec
