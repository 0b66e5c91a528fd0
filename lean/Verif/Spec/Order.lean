import Mathlib.Data.List.Basic
import Verif.Spec.Layup
/-
Lexicographic order of rows; preference order of the plies placed next to a ply.
-/
namespace Spec

/-- Row `r` is equal to `r'`, or smaller at the first column where they differ. -/
def LexLE (r r' : List ℕ) : Prop :=
  r = r' ∨ ∃ (j x y : ℕ), r.take j = r'.take j ∧ r[j]? = some x ∧ r'[j]? = some y ∧ x < y

/-- The fibre direction `x` is at least as close to the direction `a` as `y` is. -/
def CloserTo (a x y : ℤ) : Prop := ∀ d : ℤ, WithinAngle d a y → WithinAngle d a x

/-- `x` is obtained from `a` by a rotation of `t` degrees (directions are defined modulo 180°). -/
def RotatedBy (a t x : ℤ) : Prop := ∃ k : ℤ, x = a + t + 180 * k

end Spec
