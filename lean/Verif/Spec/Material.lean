import Verif.Spec.Weights
import Mathlib.Data.Real.Basic
/-
Specification vocabulary: plane-stress law of a unidirectional lamina and strain energy of a laminate (classical laminate theory).
-/
namespace Spec

/-- In-plane strains (or curvatures, or stresses): normal in two directions, and shear. -/
structure V3 where
  x : ℝ
  y : ℝ
  g : ℝ

/-- The fibre-axis strains `e` are those of the fibre-axis stresses `s` (orthotropic elastic lamina under plane stress). -/
def FibreLaw (E11 E22 nu12 G12 : ℝ) (e s : V3) : Prop :=
  e.x = s.x / E11 - nu12 * s.y / E11 ∧ e.y = s.y / E22 - nu12 * s.x / E11 ∧ e.g = s.g / G12

/-- The strains `e` of the laminate axes in the axes of a ply whose fibres are at `a` degrees. -/
noncomputable def plyStrain (a : ℤ) (e : V3) : V3 :=
  let c := Real.cos (a * Real.pi / 180)
  let s := Real.sin (a * Real.pi / 180)
  ⟨c ^ 2 * e.x + s ^ 2 * e.y + s * c * e.g, s ^ 2 * e.x + c ^ 2 * e.y - s * c * e.g,
    - 2 * s * c * e.x + 2 * s * c * e.y + (c ^ 2 - s ^ 2) * e.g⟩

/-- `w` is twice the strain energy, per unit volume, of a ply at `a` degrees under the strains `e` of the laminate axes. -/
def PlyEnergy (E11 E22 nu12 G12 : ℝ) (a : ℤ) (e : V3) (w : ℝ) : Prop :=
  ∃ s, FibreLaw E11 E22 nu12 G12 (plyStrain a e) s ∧
    w = (plyStrain a e).x * s.x + (plyStrain a e).y * s.y + (plyStrain a e).g * s.g

/-- Height of the interface `i` of a laminate of `n` plies and unit thickness, from the mid-plane. -/
noncomputable def zUnit (n i : ℕ) : ℝ := - 1 / 2 + i / n

/-- The product `e · A e` for the matrix `[[a11, a12, a16], [a12, a22, a26], [a16, a26, a66]]`. -/
def quad (a11 a12 a22 a66 a16 a26 : ℝ) (e : V3) : ℝ :=
  a11 * e.x ^ 2 + a22 * e.y ^ 2 + a66 * e.g ^ 2 + 2 * a12 * e.x * e.y + 2 * a16 * e.x * e.g + 2 * a26 * e.y * e.g

/-- The product `e · A k` for the same matrix. -/
def bilin (a11 a12 a22 a66 a16 a26 : ℝ) (e k : V3) : ℝ :=
  a11 * e.x * k.x + a22 * e.y * k.y + a66 * e.g * k.g + a12 * (e.x * k.y + e.y * k.x) + a16 * (e.x * k.g + e.g * k.x) +
    a26 * (e.y * k.g + e.g * k.y)

/-- Elastic constants of a lamina that stores a positive energy under every strain. -/
def Physical (E11 E22 nu12 G12 : ℝ) : Prop := 0 < E11 ∧ 0 < E22 ∧ 0 < G12 ∧ nu12 ^ 2 * E22 < E11

end Spec
