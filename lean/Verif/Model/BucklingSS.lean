import Verif.Model.Buckling
/-
Model of `buckling_factor_ss` (src/buckling/buckling.py), over the real numbers.
-/
namespace Bella

/-- buckling.py 33-52 `buckling_factor_ss`; `calcLampam` stands for `calc_lampam` of src/CLA, which is not in the repository. -/
noncomputable def bucklingFactorSS (calcLampam : List ℤ → List ℝ) (ss : List ℤ) (nx ny lx ly : ℝ) (mat : Mat) (nModes : Nat) : Py ℝ :=
  bucklingFactor (calcLampam ss) mat ss.length nx ny lx ly nModes

end Bella
