import Mathlib.Analysis.Real.Pi.Bounds
/-
Specification vocabulary: buckling of a simply-supported orthotropic plate.
-/
namespace Spec

/-- Classical buckling factor of a simply-supported orthotropic plate of sides `a` and `b` under the
compressive loads `nx`, `ny`, for `m` and `n` half-waves. -/
noncomputable def plateBuckling (D11 D12 D22 D66 : ℝ) (m n : ℕ) (nx ny a b : ℝ) : ℝ :=
  Real.pi ^ 2 * (D11 * (m / a) ^ 4 + 2 * (D12 + 2 * D66) * (m / a) ^ 2 * (n / b) ^ 2
    + D22 * (n / b) ^ 4) / ((m / a) ^ 2 * |nx| + (n / b) ^ 2 * |ny|)

/-- Buckling factor of a laminate of thickness `h` with material invariants `U1 ... U5` and
out-of-plane lamination parameters `x9`, `x10`. -/
noncomputable def laminateBuckling (U1 U2 U3 U4 U5 h x9 x10 : ℝ) (m n : ℕ) (nx ny a b : ℝ) : ℝ :=
  plateBuckling (h ^ 3 / 12 * (U1 + U2 * x9 + U3 * x10)) (h ^ 3 / 12 * (U4 - U3 * x10))
    (h ^ 3 / 12 * (U1 - U2 * x9 + U3 * x10)) (h ^ 3 / 12 * (U5 - U3 * x10)) m n nx ny a b

/-- `f` is the smallest value of `g m n` over the modes `1 ≤ m, n ≤ k`. -/
def IsMinOverModes (f : ℝ) (k : ℕ) (g : ℕ → ℕ → ℝ) : Prop :=
  (∃ m n, 1 ≤ m ∧ m ≤ k ∧ 1 ≤ n ∧ n ≤ k ∧ f = g m n) ∧
  ∀ m n, 1 ≤ m → m ≤ k → 1 ≤ n → n ≤ k → f ≤ g m n

end Spec
