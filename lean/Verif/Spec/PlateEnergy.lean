import Verif.Spec.Material
/-
Specification vocabulary: bending energy of a laminate of thickness `h`.
-/
namespace Spec

/-- `W` is twice the strain energy, per unit area, of the laminate `ss` of thickness `h` under the curvatures `e`: the sum over the plies of
the integral of their energy over their thickness. -/
def PlateEnergy (E11 E22 nu12 G12 : ℝ) (ss : List ℤ) (h : ℝ) (e : V3) (W : ℝ) : Prop :=
  ∃ w : ℕ → ℝ, (∀ i < ss.length, PlyEnergy E11 E22 nu12 G12 (ss.getD i 0) e (w i)) ∧
    W = ∑ i ∈ Finset.range ss.length, w i * (((h * zUnit ss.length (i + 1)) ^ 3 - (h * zUnit ss.length i) ^ 3) / 3)

/-- `g m p` is the ratio (Rayleigh quotient) of the energy of the laminate to the work of the loads for the buckling mode with `m` and
`p` half-waves: the plate bends with amplitudes `(m / a) ^ 2` and `(p / b) ^ 2`, twists with amplitude `2 (m / a) (p / b)`, and
the two patterns are out of phase. -/
def BucklingQuotient (E11 E22 nu12 G12 : ℝ) (ss : List ℤ) (h nx ny a b : ℝ) (g : ℕ → ℕ → ℝ) : Prop :=
  ∀ m p : ℕ, ∃ W1 W2, PlateEnergy E11 E22 nu12 G12 ss h ⟨(m / a) ^ 2, (p / b) ^ 2, 0⟩ W1 ∧
    PlateEnergy E11 E22 nu12 G12 ss h ⟨0, 0, 2 * (m / a) * (p / b)⟩ W2 ∧
    g m p = Real.pi ^ 2 * (W1 + W2) / ((m / a) ^ 2 * |nx| + (p / b) ^ 2 * |ny|)

/-- Out-of-plane lamination parameters computed from a stacking sequence, in the format of twelve components. -/
def IsLampam (f : List ℤ → List ℝ) : Prop := ∀ ss, ss ≠ [] → (f ss).length = 12 ∧ ∀ k < 12, (f ss).getD k 0 = lampamR ss k

end Spec
