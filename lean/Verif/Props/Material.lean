import Verif.Model.Orthotropy
import Verif.Spec.Material
import Verif.Props.AbdallaDistance
import Mathlib.Algebra.BigOperators.Field
/-
C68: lamina properties and laminate stiffnesses.
-/
namespace Bella

open Spec

theorem mkMaterial_inv {E11 E22 nu12 G12 dv da t : ℝ} {m : Lamina ℝ} (h : mkMaterial E11 E22 nu12 G12 dv da t = .ok m) :
    0 < E11 ∧ 0 ≤ dv ∧ 0 ≤ da ∧ 0 < t ∧ 1 - nu12 * (nu12 * E22 / E11) ≠ 0 ∧
    m.E11 = E11 ∧ m.E22 = E22 ∧ m.nu12 = nu12 ∧ m.G12 = G12 ∧ m.nu21 = nu12 * E22 / E11 ∧ m.plyT = t ∧
    m.Q11 = E11 / (1 - nu12 * (nu12 * E22 / E11)) ∧ m.Q12 = nu12 * E22 / (1 - nu12 * (nu12 * E22 / E11)) ∧
    m.Q22 = E22 / (1 - nu12 * (nu12 * E22 / E11)) ∧ m.Q66 = G12 ∧
    m.U1 = (1 / 8) * (3 * m.Q11 + 3 * m.Q22 + 2 * m.Q12 + 4 * m.Q66) ∧ m.U2 = (1 / 2) * (m.Q11 - m.Q22) ∧
    m.U3 = (1 / 8) * (m.Q11 + m.Q22 - 2 * m.Q12 - 4 * m.Q66) ∧ m.U4 = (1 / 8) * (m.Q11 + m.Q22 + 6 * m.Q12 - 4 * m.Q66) ∧
    m.U5 = (1 / 8) * (m.Q11 + m.Q22 - 2 * m.Q12 + 4 * m.Q66) := by
  unfold mkMaterial at h
  by_cases h1 : E11 ≤ 0
  · rw [if_pos h1] at h; cases h
  rw [if_neg h1, if_neg h1, if_neg h1] at h
  by_cases h2 : dv < 0
  · rw [if_pos h2] at h; cases h
  rw [if_neg h2] at h
  by_cases h3 : da < 0
  · rw [if_pos h3] at h; cases h
  rw [if_neg h3] at h
  by_cases h4 : t ≤ 0
  · rw [if_pos h4] at h; cases h
  rw [if_neg h4] at h
  simp only [] at h
  by_cases h5 : 1 - nu12 * (nu12 * E22 / E11) = 0
  · rw [if_pos h5] at h; cases h
  rw [if_neg h5] at h
  have h := Except.ok.inj h
  subst h
  exact ⟨not_le.1 h1, not_lt.1 h2, not_lt.1 h3, not_le.1 h4, h5, rfl, rfl, rfl, rfl, rfl, rfl, rfl, rfl, rfl, rfl, rfl, rfl, rfl, rfl, rfl⟩

/-- Energy of a ply from the reduced stiffnesses. -/
theorem plyEnergy_iff {E11 E22 nu12 G12 : ℝ} (h1 : E11 ≠ 0) (h2 : E22 ≠ 0) (h3 : G12 ≠ 0) (hb : 1 - nu12 * (nu12 * E22 / E11) ≠ 0)
    (a : ℤ) (e : V3) (w : ℝ) : PlyEnergy E11 E22 nu12 G12 a e w ↔
    w = E11 / (1 - nu12 * (nu12 * E22 / E11)) * (plyStrain a e).x ^ 2 +
      2 * (nu12 * E22 / (1 - nu12 * (nu12 * E22 / E11))) * (plyStrain a e).x * (plyStrain a e).y +
      E22 / (1 - nu12 * (nu12 * E22 / E11)) * (plyStrain a e).y ^ 2 + G12 * (plyStrain a e).g ^ 2 := by
  unfold PlyEnergy FibreLaw
  generalize plyStrain a e = p
  have hb' : E11 - nu12 ^ 2 * E22 ≠ 0 := by
    intro h
    apply hb
    field_simp
    linarith
  have e1 : E11 / (1 - nu12 * (nu12 * E22 / E11)) = E11 ^ 2 / (E11 - nu12 ^ 2 * E22) := by field_simp
  have e2 : nu12 * E22 / (1 - nu12 * (nu12 * E22 / E11)) = nu12 * E22 * E11 / (E11 - nu12 ^ 2 * E22) := by field_simp
  have e3 : E22 / (1 - nu12 * (nu12 * E22 / E11)) = E22 * E11 / (E11 - nu12 ^ 2 * E22) := by field_simp
  rw [e1, e2, e3]
  constructor
  · rintro ⟨s, ⟨l1, l2, l3⟩, rfl⟩
    rw [l1, l2, l3]
    field_simp
    ring
  · rintro rfl
    refine ⟨⟨E11 ^ 2 / (E11 - nu12 ^ 2 * E22) * p.x + nu12 * E22 * E11 / (E11 - nu12 ^ 2 * E22) * p.y,
      nu12 * E22 * E11 / (E11 - nu12 ^ 2 * E22) * p.x + E22 * E11 / (E11 - nu12 ^ 2 * E22) * p.y, G12 * p.g⟩, ⟨?_, ?_, ?_⟩, ?_⟩
    · simp only []
      field_simp
      ring
    · simp only []
      field_simp
      ring
    · simp only []
      field_simp
    · simp only []
      ring

/-- A 3×3 matrix as a quadratic form. -/
def Sym3.quad (A : Sym3 ℝ) (e : V3) : ℝ := Spec.quad A.a11 A.a12 A.a22 A.a66 A.a16 A.a26 e

/-- The energy of a ply is that of the stiffnesses of the invariants of the material. -/
theorem ply_quad (m : Lamina ℝ) (h1 : m.U1 = (1 / 8) * (3 * m.Q11 + 3 * m.Q22 + 2 * m.Q12 + 4 * m.Q66))
    (h2 : m.U2 = (1 / 2) * (m.Q11 - m.Q22)) (h3 : m.U3 = (1 / 8) * (m.Q11 + m.Q22 - 2 * m.Q12 - 4 * m.Q66))
    (h4 : m.U4 = (1 / 8) * (m.Q11 + m.Q22 + 6 * m.Q12 - 4 * m.Q66)) (h5 : m.U5 = (1 / 8) * (m.Q11 + m.Q22 - 2 * m.Q12 + 4 * m.Q66))
    (a : ℤ) (e : V3) :
    m.Q11 * (plyStrain a e).x ^ 2 + 2 * m.Q12 * (plyStrain a e).x * (plyStrain a e).y + m.Q22 * (plyStrain a e).y ^ 2 +
      m.Q66 * (plyStrain a e).g ^ 2 =
    (stiffness 1 m.U1 m.U2 m.U3 m.U4 m.U5 (trig 0 a) (trig 1 a) (trig 2 a) (trig 3 a)).quad e := by
  have t1 : trig 1 a = 2 * trig 0 a ^ 2 - 1 := trig_one a
  have t3 : trig 3 a = 2 * trig 2 a * trig 0 a := by
    simp only [trig]
    rw [show 4 * ((a : ℝ) * Real.pi / 180) = 2 * (2 * (a * Real.pi / 180)) by ring, Real.sin_two_mul]
  have hS : trig 2 a ^ 2 = 1 - trig 0 a ^ 2 := by
    simp only [trig]
    rw [Real.sin_sq]
  have hc : Real.cos (a * Real.pi / 180) ^ 2 = (1 + trig 0 a) / 2 := by
    simp only [trig]
    rw [Real.cos_two_mul]
    ring
  have hs : Real.sin (a * Real.pi / 180) ^ 2 = (1 - trig 0 a) / 2 := by
    rw [Real.sin_sq, hc]
    ring
  have hsc : Real.sin (a * Real.pi / 180) * Real.cos (a * Real.pi / 180) = trig 2 a / 2 := by
    simp only [trig]
    rw [Real.sin_two_mul]
    ring
  have p1 : (plyStrain a e).x = (1 + trig 0 a) / 2 * e.x + (1 - trig 0 a) / 2 * e.y + trig 2 a / 2 * e.g := by
    simp only [plyStrain]
    rw [hc, hs, hsc]
  have p2 : (plyStrain a e).y = (1 - trig 0 a) / 2 * e.x + (1 + trig 0 a) / 2 * e.y - trig 2 a / 2 * e.g := by
    simp only [plyStrain]
    rw [hc, hs, hsc]
  have p3 : (plyStrain a e).g = - trig 2 a * e.x + trig 2 a * e.y + trig 0 a * e.g := by
    simp only [plyStrain]
    rw [hc, hs]
    linear_combination (-2 * e.x + 2 * e.y) * hsc
  rw [p1, p2, p3]
  simp only [Sym3.quad, Spec.quad, stiffness]
  rw [t1, t3, h1, h2, h3, h4, h5]
  generalize trig 0 a = C at *
  generalize trig 2 a = S at *
  linear_combination (m.Q11 * e.g ^ 2 / 4 + m.Q22 * e.g ^ 2 / 4 - m.Q12 * e.g ^ 2 / 2 + m.Q66 * (e.y - e.x) ^ 2) * hS

/-- Sums of stiffnesses. -/
theorem sum_quad (m : Lamina ℝ) (e : V3) (n : Nat) (w : Nat → ℝ) (a : Nat → ℤ) :
    ∑ i ∈ Finset.range n, (stiffness 1 m.U1 m.U2 m.U3 m.U4 m.U5 (trig 0 (a i)) (trig 1 (a i)) (trig 2 (a i)) (trig 3 (a i))).quad e * w i =
    (stiffness 1 (m.U1 * ∑ i ∈ Finset.range n, w i) m.U2 m.U3 (m.U4 * ∑ i ∈ Finset.range n, w i) (m.U5 * ∑ i ∈ Finset.range n, w i)
      (∑ i ∈ Finset.range n, trig 0 (a i) * w i) (∑ i ∈ Finset.range n, trig 1 (a i) * w i) (∑ i ∈ Finset.range n, trig 2 (a i) * w i)
      (∑ i ∈ Finset.range n, trig 3 (a i) * w i)).quad e := by
  induction n with
  | zero => simp [stiffness, Sym3.quad, Spec.quad]
  | succ n ih =>
    simp only [Finset.sum_range_succ]
    rw [ih]
    simp only [stiffness, Sym3.quad, Spec.quad]
    ring

theorem height_heightR (n i : Nat) : zUnit n i = heightR n i / 2 := by
  unfold zUnit heightR
  ring

/-- The lamination parameters as sums over the plies of a laminate of unit thickness. -/
theorem lampam_height (ss : List ℤ) (k : Nat) (hk : k < 4) :
    lampamR ss k = ∑ i ∈ Finset.range ss.length, trig k (ss.getD i 0) * (zUnit ss.length (i + 1) - zUnit ss.length i) ∧
    lampamR ss (k + 4) / 4 = ∑ i ∈ Finset.range ss.length, trig k (ss.getD i 0) *
      ((zUnit ss.length (i + 1) ^ 2 - zUnit ss.length i ^ 2) / 2) ∧
    lampamR ss (k + 8) / 12 = ∑ i ∈ Finset.range ss.length, trig k (ss.getD i 0) *
      ((zUnit ss.length (i + 1) ^ 3 - zUnit ss.length i ^ 3) / 3) := by
  unfold lampamR
  have m1 : k % 4 = k := Nat.mod_eq_of_lt hk
  have m2 : (k + 4) % 4 = k := by omega
  have m3 : (k + 8) % 4 = k := by omega
  have d1 : k / 4 = 0 := by omega
  have d2 : (k + 4) / 4 = 1 := by omega
  have d3 : (k + 8) / 4 = 2 := by omega
  rw [m1, m2, m3, d1, d2, d3]
  refine ⟨?_, ?_, ?_⟩
  · rw [Finset.sum_div]
    exact Finset.sum_congr rfl fun i _ => by rw [height_heightR, height_heightR]; ring
  · rw [Finset.sum_div, Finset.sum_div]
    exact Finset.sum_congr rfl fun i _ => by rw [height_heightR, height_heightR]; ring
  · rw [Finset.sum_div, Finset.sum_div]
    exact Finset.sum_congr rfl fun i _ => by rw [height_heightR, height_heightR]; ring

theorem height_sums (n : Nat) (hn : 0 < n) : ∑ i ∈ Finset.range n, (zUnit n (i + 1) - zUnit n i) = 1 ∧
    ∑ i ∈ Finset.range n, (zUnit n (i + 1) ^ 2 - zUnit n i ^ 2) / 2 = 0 ∧
    ∑ i ∈ Finset.range n, (zUnit n (i + 1) ^ 3 - zUnit n i ^ 3) / 3 = 1 / 12 := by
  have hn' : (n : ℝ) ≠ 0 := by exact_mod_cast hn.ne'
  have h0 : zUnit n 0 = - 1 / 2 := by simp [zUnit]
  have h1 : zUnit n n = 1 / 2 := by
    unfold zUnit
    rw [div_self hn']
    norm_num
  refine ⟨?_, ?_, ?_⟩
  · rw [Finset.sum_range_sub (fun i => zUnit n i), h0, h1]
    norm_num
  · rw [← Finset.sum_div, Finset.sum_range_sub (fun i => zUnit n i ^ 2), h0, h1]
    norm_num
  · rw [← Finset.sum_div, Finset.sum_range_sub (fun i => zUnit n i ^ 3), h0, h1]
    norm_num

/-- Coupling stiffnesses (ipo_oopo.py 68-73). -/
noncomputable abbrev stiffB (m : Lamina ℝ) (l : Nat → ℝ) : Sym3 ℝ := stiffness (1 / 4) 0 m.U2 m.U3 0 0 (l 4) (l 5) (l 6) (l 7)

/-- Bending stiffnesses (ipo_oopo.py 75-80). -/
noncomputable abbrev stiffD (m : Lamina ℝ) (l : Nat → ℝ) : Sym3 ℝ :=
  stiffness (1 / 12) m.U1 m.U2 m.U3 m.U4 m.U5 (l 8) (l 9) (l 10) (l 11)

/-- Energy of a ply as used in the sums. -/
noncomputable def plyQ (m : Lamina ℝ) (a : ℤ) (e : V3) : ℝ :=
  m.Q11 * (plyStrain a e).x ^ 2 + 2 * m.Q12 * (plyStrain a e).x * (plyStrain a e).y + m.Q22 * (plyStrain a e).y ^ 2 +
    m.Q66 * (plyStrain a e).g ^ 2

/-- The invariants of a material. -/
structure Invariants (m : Lamina ℝ) : Prop where
  h1 : m.U1 = (1 / 8) * (3 * m.Q11 + 3 * m.Q22 + 2 * m.Q12 + 4 * m.Q66)
  h2 : m.U2 = (1 / 2) * (m.Q11 - m.Q22)
  h3 : m.U3 = (1 / 8) * (m.Q11 + m.Q22 - 2 * m.Q12 - 4 * m.Q66)
  h4 : m.U4 = (1 / 8) * (m.Q11 + m.Q22 + 6 * m.Q12 - 4 * m.Q66)
  h5 : m.U5 = (1 / 8) * (m.Q11 + m.Q22 - 2 * m.Q12 + 4 * m.Q66)

theorem laminate_quad (m : Lamina ℝ) (hm : Invariants m) (ss : List ℤ) (hss : ss ≠ []) (e : V3) :
    (stiffA m (lampamR ss)).quad e = ∑ i ∈ Finset.range ss.length, plyQ m (ss.getD i 0) e * (zUnit ss.length (i + 1) - zUnit ss.length i) ∧
    (stiffB m (lampamR ss)).quad e = ∑ i ∈ Finset.range ss.length, plyQ m (ss.getD i 0) e *
      ((zUnit ss.length (i + 1) ^ 2 - zUnit ss.length i ^ 2) / 2) ∧
    (stiffD m (lampamR ss)).quad e = ∑ i ∈ Finset.range ss.length, plyQ m (ss.getD i 0) e *
      ((zUnit ss.length (i + 1) ^ 3 - zUnit ss.length i ^ 3) / 3) := by
  have hn : 0 < ss.length := List.length_pos_iff.2 hss
  obtain ⟨s1, s2, s3⟩ := height_sums ss.length hn
  have key : ∀ w : Nat → ℝ, ∑ i ∈ Finset.range ss.length, plyQ m (ss.getD i 0) e * w i =
      (stiffness 1 (m.U1 * ∑ i ∈ Finset.range ss.length, w i) m.U2 m.U3 (m.U4 * ∑ i ∈ Finset.range ss.length, w i)
        (m.U5 * ∑ i ∈ Finset.range ss.length, w i) (∑ i ∈ Finset.range ss.length, trig 0 (ss.getD i 0) * w i)
        (∑ i ∈ Finset.range ss.length, trig 1 (ss.getD i 0) * w i) (∑ i ∈ Finset.range ss.length, trig 2 (ss.getD i 0) * w i)
        (∑ i ∈ Finset.range ss.length, trig 3 (ss.getD i 0) * w i)).quad e := fun w => by
    rw [← sum_quad m e ss.length w (fun i => ss.getD i 0)]
    exact Finset.sum_congr rfl fun i _ => by rw [plyQ, ply_quad m hm.h1 hm.h2 hm.h3 hm.h4 hm.h5]
  obtain ⟨a0, b0, d0⟩ := lampam_height ss 0 (by norm_num)
  obtain ⟨a1, b1, d1⟩ := lampam_height ss 1 (by norm_num)
  obtain ⟨a2, b2, d2⟩ := lampam_height ss 2 (by norm_num)
  obtain ⟨a3, b3, d3⟩ := lampam_height ss 3 (by norm_num)
  refine ⟨?_, ?_, ?_⟩
  · rw [key, s1, ← a0, ← a1, ← a2, ← a3]
    simp only [stiffA, stiffness, Sym3.quad, Spec.quad]
    ring
  · rw [key, s2, ← b0, ← b1, ← b2, ← b3]
    simp only [stiffB, stiffness, Sym3.quad, Spec.quad]
    ring
  · rw [key, s3, ← d0, ← d1, ← d2, ← d3]
    simp only [stiffD, stiffness, Sym3.quad, Spec.quad]
    ring

/-- **C68.** The invariants of an accepted material and the formulas of the laminate stiffnesses agree with classical laminate theory:
for every laminate and every strain (curvature), the energy given by the extensional, coupling and bending matrices is the sum over the
plies of their energy times the differences of the (squared, cubed) heights of their faces. -/
theorem C68_laminate_energy (E11 E22 nu12 G12 dv da t : ℝ) (m : Lamina ℝ) (h : mkMaterial E11 E22 nu12 G12 dv da t = .ok m)
    (hE : E22 ≠ 0) (hG : G12 ≠ 0) (ss : List ℤ) (hss : ss ≠ []) (e : V3) :
    (∀ a, ∃ w, PlyEnergy E11 E22 nu12 G12 a e w) ∧
    ∀ w : Nat → ℝ, (∀ i < ss.length, PlyEnergy E11 E22 nu12 G12 (ss.getD i 0) e (w i)) →
      (∀ A, A = stiffA m (lampamR ss) → quad A.a11 A.a12 A.a22 A.a66 A.a16 A.a26 e =
        ∑ i ∈ Finset.range ss.length, w i * (zUnit ss.length (i + 1) - zUnit ss.length i)) ∧
      (∀ B, B = stiffness (1 / 4) 0 m.U2 m.U3 0 0 (lampamR ss 4) (lampamR ss 5) (lampamR ss 6) (lampamR ss 7) →
        quad B.a11 B.a12 B.a22 B.a66 B.a16 B.a26 e =
        ∑ i ∈ Finset.range ss.length, w i * ((zUnit ss.length (i + 1) ^ 2 - zUnit ss.length i ^ 2) / 2)) ∧
      (∀ D, D = stiffness (1 / 12) m.U1 m.U2 m.U3 m.U4 m.U5 (lampamR ss 8) (lampamR ss 9) (lampamR ss 10) (lampamR ss 11) →
        quad D.a11 D.a12 D.a22 D.a66 D.a16 D.a26 e =
        ∑ i ∈ Finset.range ss.length, w i * ((zUnit ss.length (i + 1) ^ 3 - zUnit ss.length i ^ 3) / 3)) := by
  obtain ⟨p1, _, _, _, pb, _, _, _, _, _, _, q11, q12, q22, q66, u1, u2, u3, u4, u5⟩ := mkMaterial_inv h
  have hw : ∀ a w, PlyEnergy E11 E22 nu12 G12 a e w ↔ w = plyQ m a e := fun a w => by
    rw [plyEnergy_iff p1.ne' hE hG pb, plyQ, q11, q12, q22, q66]
  refine ⟨fun a => ⟨_, (hw a _).2 rfl⟩, fun w hww => ?_⟩
  obtain ⟨g1, g2, g3⟩ := laminate_quad m ⟨u1, u2, u3, u4, u5⟩ ss hss e
  have hw' : ∀ i ∈ Finset.range ss.length, plyQ m (ss.getD i 0) e = w i := fun i hi =>
    ((hw _ _).1 (hww i (Finset.mem_range.1 hi))).symm
  refine ⟨?_, ?_, ?_⟩
  · rintro A rfl
    rw [show quad _ _ _ _ _ _ e = (stiffA m (lampamR ss)).quad e from rfl, g1]
    exact Finset.sum_congr rfl fun i hi => by rw [hw' i hi]
  · rintro A rfl
    rw [show quad _ _ _ _ _ _ e = (stiffB m (lampamR ss)).quad e from rfl, g2]
    exact Finset.sum_congr rfl fun i hi => by rw [hw' i hi]
  · rintro A rfl
    rw [show quad _ _ _ _ _ _ e = (stiffD m (lampamR ss)).quad e from rfl, g3]
    exact Finset.sum_congr rfl fun i hi => by rw [hw' i hi]

/-! ### Positive energy -/

theorem plyQ_nonneg (m : Lamina ℝ) (hQ1 : 0 < m.Q11) (hQ3 : 0 < m.Q66) (hd : 0 < m.Q11 * m.Q22 - m.Q12 ^ 2) (a : ℤ) (e : V3) :
    0 ≤ plyQ m a e ∧ (plyQ m a e = 0 → e.x = 0 ∧ e.y = 0 ∧ e.g = 0) := by
  have id : m.Q11 * plyQ m a e = (m.Q11 * (plyStrain a e).x + m.Q12 * (plyStrain a e).y) ^ 2 +
      (m.Q11 * m.Q22 - m.Q12 ^ 2) * (plyStrain a e).y ^ 2 + m.Q11 * m.Q66 * (plyStrain a e).g ^ 2 := by
    unfold plyQ
    ring
  have i1 := sq_nonneg (m.Q11 * (plyStrain a e).x + m.Q12 * (plyStrain a e).y)
  have i2 := mul_nonneg hd.le (sq_nonneg (plyStrain a e).y)
  have i3 := mul_nonneg (mul_pos hQ1 hQ3).le (sq_nonneg (plyStrain a e).g)
  refine ⟨?_, fun h => ?_⟩
  · by_contra hneg
    have := mul_neg_of_pos_of_neg hQ1 (not_le.1 hneg)
    linarith
  · rw [h, mul_zero] at id
    have hy : (plyStrain a e).y = 0 := by
      have : (m.Q11 * m.Q22 - m.Q12 ^ 2) * (plyStrain a e).y ^ 2 = 0 := by linarith
      rcases mul_eq_zero.1 this with h | h
      · exact absurd h hd.ne'
      · exact pow_eq_zero_iff (two_ne_zero) |>.1 h
    have hg : (plyStrain a e).g = 0 := by
      have : (m.Q11 * m.Q66) * (plyStrain a e).g ^ 2 = 0 := by linarith
      rcases mul_eq_zero.1 this with h | h
      · exact absurd h (mul_pos hQ1 hQ3).ne'
      · exact pow_eq_zero_iff (two_ne_zero) |>.1 h
    have hx : (plyStrain a e).x = 0 := by
      have h0 : (m.Q11 * (plyStrain a e).x + m.Q12 * (plyStrain a e).y) ^ 2 = 0 := by linarith
      have h1 := pow_eq_zero_iff (two_ne_zero) |>.1 h0
      rw [hy, mul_zero, add_zero] at h1
      rcases mul_eq_zero.1 h1 with h | h
      · exact absurd h hQ1.ne'
      · exact h
    simp only [plyStrain] at hx hy hg
    have hcs := Real.sin_sq_add_cos_sq ((a : ℝ) * Real.pi / 180)
    generalize Real.sin ((a : ℝ) * Real.pi / 180) = s at *
    generalize Real.cos ((a : ℝ) * Real.pi / 180) = c at *
    have hc2 : c ^ 2 = 1 - s ^ 2 := by linarith
    refine ⟨?_, ?_, ?_⟩
    · have : e.x = c ^ 2 * (c ^ 2 * e.x + s ^ 2 * e.y + s * c * e.g) + s ^ 2 * (s ^ 2 * e.x + c ^ 2 * e.y - s * c * e.g) -
          s * c * (- 2 * s * c * e.x + 2 * s * c * e.y + (c ^ 2 - s ^ 2) * e.g) := by
        linear_combination (- (s ^ 2 + c ^ 2 + 1) * e.x) * hcs
      rw [this, hx, hy, hg]; ring
    · have : e.y = s ^ 2 * (c ^ 2 * e.x + s ^ 2 * e.y + s * c * e.g) + c ^ 2 * (s ^ 2 * e.x + c ^ 2 * e.y - s * c * e.g) +
          s * c * (- 2 * s * c * e.x + 2 * s * c * e.y + (c ^ 2 - s ^ 2) * e.g) := by
        linear_combination (- (s ^ 2 + c ^ 2 + 1) * e.y) * hcs
      rw [this, hx, hy, hg]; ring
    · have : e.g = 2 * s * c * (c ^ 2 * e.x + s ^ 2 * e.y + s * c * e.g) - 2 * s * c * (s ^ 2 * e.x + c ^ 2 * e.y - s * c * e.g) +
          (c ^ 2 - s ^ 2) * (- 2 * s * c * e.x + 2 * s * c * e.y + (c ^ 2 - s ^ 2) * e.g) := by
        linear_combination (- (s ^ 2 + c ^ 2 + 1) * e.g) * hcs
      rw [this, hx, hy, hg]; ring

/-- `e · B k`. -/
def Sym3.bil (B : Sym3 ℝ) (e k : V3) : ℝ := Spec.bilin B.a11 B.a12 B.a22 B.a66 B.a16 B.a26 e k

/-- Sum of vectors. -/
def vadd (r : ℝ) (e k : V3) : V3 := ⟨e.x + r * k.x, e.y + r * k.y, e.g + r * k.g⟩

theorem plyQ_vadd (m : Lamina ℝ) (a : ℤ) (r : ℝ) (e k : V3) :
    plyQ m a (vadd r e k) = plyQ m a e + r * (plyQ m a (vadd 1 e k) - plyQ m a e - plyQ m a k) + r ^ 2 * plyQ m a k := by
  simp only [plyQ, plyStrain, vadd]
  ring

theorem quad_vadd (A : Sym3 ℝ) (e k : V3) : A.quad (vadd 1 e k) = A.quad e + 2 * A.bil e k + A.quad k := by
  simp only [Sym3.quad, Spec.quad, Sym3.bil, Spec.bilin, vadd]
  ring

/-- The energy of a laminate under strains and curvatures is the sum over the plies of the energy at their mid-surfaces and a positive
term. -/
theorem total_energy (m : Lamina ℝ) (hm : Invariants m) (ss : List ℤ) (hss : ss ≠ []) (e k : V3) :
    (stiffA m (lampamR ss)).quad e + 2 * (stiffB m (lampamR ss)).bil e k + (stiffD m (lampamR ss)).quad k =
    ∑ i ∈ Finset.range ss.length, (plyQ m (ss.getD i 0) (vadd ((zUnit ss.length (i + 1) + zUnit ss.length i) / 2) e k) / ss.length +
      plyQ m (ss.getD i 0) k / (12 * ss.length ^ 3)) := by
  have hb : 2 * (stiffB m (lampamR ss)).bil e k =
      (stiffB m (lampamR ss)).quad (vadd 1 e k) - (stiffB m (lampamR ss)).quad e - (stiffB m (lampamR ss)).quad k := by
    rw [quad_vadd]; ring
  rw [hb, (laminate_quad m hm ss hss e).1, (laminate_quad m hm ss hss e).2.1, (laminate_quad m hm ss hss (vadd 1 e k)).2.1,
    (laminate_quad m hm ss hss k).2.1, (laminate_quad m hm ss hss k).2.2, ← Finset.sum_sub_distrib, ← Finset.sum_sub_distrib,
    ← Finset.sum_add_distrib, ← Finset.sum_add_distrib]
  apply Finset.sum_congr rfl
  intro i _
  rw [plyQ_vadd m (ss.getD i 0) ((zUnit ss.length (i + 1) + zUnit ss.length i) / 2)]
  have hn : (ss.length : ℝ) ≠ 0 := by exact_mod_cast (List.length_pos_iff.2 hss).ne'
  unfold zUnit
  push_cast
  generalize plyQ m (ss.getD i 0) (vadd 1 e k) = x
  generalize plyQ m (ss.getD i 0) e = y
  generalize plyQ m (ss.getD i 0) k = z
  generalize (ss.length : ℝ) = n at *
  generalize (i : ℝ) = j at *
  field_simp
  ring

theorem physical_Q {E11 E22 nu12 G12 dv da t : ℝ} {m : Lamina ℝ} (h : mkMaterial E11 E22 nu12 G12 dv da t = .ok m)
    (hp : Physical E11 E22 nu12 G12) : 0 < m.Q11 ∧ 0 < m.Q22 ∧ 0 < m.Q66 ∧ 0 < m.Q11 * m.Q22 - m.Q12 ^ 2 ∧ Invariants m := by
  obtain ⟨p1, _, _, _, pb, _, _, _, _, _, _, q11, q12, q22, q66, u1, u2, u3, u4, u5⟩ := mkMaterial_inv h
  obtain ⟨h1, h2, h3, h4⟩ := hp
  have hb : 0 < 1 - nu12 * (nu12 * E22 / E11) := by
    have : 1 - nu12 * (nu12 * E22 / E11) = (E11 - nu12 ^ 2 * E22) / E11 := by field_simp
    rw [this]
    exact div_pos (by linarith) h1
  refine ⟨by rw [q11]; positivity, by rw [q22]; positivity, by rw [q66]; exact h3, ?_, ⟨u1, u2, u3, u4, u5⟩⟩
  have e1 : m.Q11 * m.Q22 - m.Q12 ^ 2 = E22 * (E11 - nu12 ^ 2 * E22) / (1 - nu12 * (nu12 * E22 / E11)) ^ 2 := by
    rw [q11, q22, q12]
    field_simp
  rw [e1]
  have : 0 < E11 - nu12 ^ 2 * E22 := by linarith
  positivity

theorem positive_energy (E11 E22 nu12 G12 dv da t : ℝ) (m : Lamina ℝ) (h : mkMaterial E11 E22 nu12 G12 dv da t = .ok m)
    (hp : Physical E11 E22 nu12 G12) (ss : List ℤ) (hss : ss ≠ []) (e k : V3)
    (hne : ¬ (e.x = 0 ∧ e.y = 0 ∧ e.g = 0 ∧ k.x = 0 ∧ k.y = 0 ∧ k.g = 0)) :
    0 < (stiffA m (lampamR ss)).quad e + 2 * (stiffB m (lampamR ss)).bil e k + (stiffD m (lampamR ss)).quad k := by
  obtain ⟨hQ1, hQ2, hQ3, hd, hm⟩ := physical_Q h hp
  have hn : 0 < ss.length := List.length_pos_iff.2 hss
  have hn' : (0 : ℝ) < ss.length := by exact_mod_cast hn
  rw [total_energy m hm ss hss]
  apply Finset.sum_pos
  · intro i _
    have g1 := plyQ_nonneg m hQ1 hQ3 hd (ss.getD i 0) (vadd ((zUnit ss.length (i + 1) + zUnit ss.length i) / 2) e k)
    have g2 := plyQ_nonneg m hQ1 hQ3 hd (ss.getD i 0) k
    by_cases hk : k.x = 0 ∧ k.y = 0 ∧ k.g = 0
    · have : 0 < plyQ m (ss.getD i 0) (vadd ((zUnit ss.length (i + 1) + zUnit ss.length i) / 2) e k) := by
        rcases lt_or_eq_of_le g1.1 with h | h
        · exact h
        · exfalso
          have := g1.2 h.symm
          simp only [vadd, hk.1, hk.2.1, hk.2.2, mul_zero, add_zero] at this
          exact hne ⟨this.1, this.2.1, this.2.2, hk.1, hk.2.1, hk.2.2⟩
      have h2 := g2.1
      positivity
    · have : 0 < plyQ m (ss.getD i 0) k := by
        rcases lt_or_eq_of_le g2.1 with h | h
        · exact h
        · exact absurd (g2.2 h.symm) hk
      have h1 := g1.1
      positivity
  · exact ⟨0, Finset.mem_range.2 hn⟩


/-- **C68.** With physically meaningful constants every laminate resists every deformation: the energy of any strains and curvatures (not all
zero) is positive. -/
theorem C68_positive_energy (E11 E22 nu12 G12 dv da t : ℝ) (m : Lamina ℝ) (h : mkMaterial E11 E22 nu12 G12 dv da t = .ok m)
    (hp : Physical E11 E22 nu12 G12) (ss : List ℤ) (hss : ss ≠ []) (e k : V3)
    (hne : ¬ (e.x = 0 ∧ e.y = 0 ∧ e.g = 0 ∧ k.x = 0 ∧ k.y = 0 ∧ k.g = 0)) (A B D : Sym3 ℝ) (hA : A = stiffA m (lampamR ss))
    (hB : B = stiffness (1 / 4) 0 m.U2 m.U3 0 0 (lampamR ss 4) (lampamR ss 5) (lampamR ss 6) (lampamR ss 7))
    (hD : D = stiffness (1 / 12) m.U1 m.U2 m.U3 m.U4 m.U5 (lampamR ss 8) (lampamR ss 9) (lampamR ss 10) (lampamR ss 11)) :
    0 < quad A.a11 A.a12 A.a22 A.a66 A.a16 A.a26 e + 2 * bilin B.a11 B.a12 B.a22 B.a66 B.a16 B.a26 e k +
      quad D.a11 D.a12 D.a22 D.a66 D.a16 D.a26 k := by
  subst hA hB hD
  exact positive_energy E11 E22 nu12 G12 dv da t m h hp ss hss e k hne

/-- **C68.** The settings that are accepted (only the sign of the modulus in the fibre direction is tested). -/
theorem C68_accepted (E11 E22 nu12 G12 dv da t : ℝ) : (∃ m, mkMaterial E11 E22 nu12 G12 dv da t = .ok m) ↔
    0 < E11 ∧ 0 ≤ dv ∧ 0 ≤ da ∧ 0 < t ∧ nu12 ^ 2 * E22 ≠ E11 := by
  have hb : 0 < E11 → (1 - nu12 * (nu12 * E22 / E11) = 0 ↔ nu12 ^ 2 * E22 = E11) := by
    intro h
    have : 1 - nu12 * (nu12 * E22 / E11) = (E11 - nu12 ^ 2 * E22) / E11 := by field_simp
    rw [this, div_eq_zero_iff]
    constructor
    · rintro (h' | h')
      · linarith
      · exact absurd h' h.ne'
    · intro h'; left; linarith
  constructor
  · rintro ⟨m, hm⟩
    obtain ⟨p1, p2, p3, p4, pb, _⟩ := mkMaterial_inv hm
    exact ⟨p1, p2, p3, p4, fun h => pb ((hb p1).2 h)⟩
  · rintro ⟨h1, h2, h3, h4, h5⟩
    unfold mkMaterial
    rw [if_neg (not_le.2 h1), if_neg (not_le.2 h1), if_neg (not_le.2 h1), if_neg (not_lt.2 h2), if_neg (not_lt.2 h3), if_neg (not_le.2 h4)]
    simp only []
    rw [if_neg (fun h => h5 ((hb h1).1 h))]
    exact ⟨_, rfl⟩

/-- **C68 (violation).** "Accepted constants are physically meaningful": a negative transverse modulus and a negative shear modulus are
accepted, and the laminate of a single ply then has a negative energy under a shear strain. -/
theorem C68_negative_moduli_violation : ∃ m, mkMaterial (130 : ℝ) (-9) (3 / 10) (-4) 0 0 (2 / 10000) = .ok m ∧
    m.E22 < 0 ∧ m.G12 < 0 ∧ ∀ A, A = stiffA m (lampamR [0]) → quad A.a11 A.a12 A.a22 A.a66 A.a16 A.a26 ⟨0, 0, 1⟩ < 0 := by
  obtain ⟨m, hm⟩ := (C68_accepted 130 (-9) (3 / 10) (-4) 0 0 (2 / 10000)).2 (by norm_num)
  obtain ⟨p1, _, _, _, pb, _, e2, _, g, _, _, q11, q12, q22, q66, u1, u2, u3, u4, u5⟩ := mkMaterial_inv hm
  refine ⟨m, hm, by rw [e2]; norm_num, by rw [g]; norm_num, ?_⟩
  rintro A rfl
  have := (laminate_quad m ⟨u1, u2, u3, u4, u5⟩ [0] (by simp) ⟨0, 0, 1⟩).1
  rw [show quad _ _ _ _ _ _ ⟨0, 0, 1⟩ = (stiffA m (lampamR [0])).quad ⟨0, 0, 1⟩ from rfl, this]
  simp [plyQ, plyStrain, q66, zUnit]

/-- **C68.** Densities: when exactly one of the two is given, the other one is such that the density per area is the density per volume times
the ply thickness. -/
theorem C68_densities (E11 E22 nu12 G12 dv da t : ℝ) (m : Lamina ℝ) (h : mkMaterial E11 E22 nu12 G12 dv da t = .ok m) :
    (dv ≠ 0 → m.densityVolume = dv) ∧ (da ≠ 0 → m.densityArea = da) ∧
    ((dv = 0 ↔ da ≠ 0) → m.densityArea = m.densityVolume * m.plyT) := by
  obtain ⟨p1, p2, p3, p4, pb, _⟩ := mkMaterial_inv h
  unfold mkMaterial at h
  rw [if_neg (not_le.2 p1), if_neg (not_le.2 p1), if_neg (not_le.2 p1), if_neg (not_lt.2 p2), if_neg (not_lt.2 p3), if_neg (not_le.2 p4)] at h
  simp only [] at h
  rw [if_neg pb] at h
  have h := Except.ok.inj h
  subst h
  simp only []
  by_cases c1 : da = 0
  · by_cases c2 : dv = 0
    · rw [if_pos ⟨c1, c2⟩]
      exact ⟨fun h => absurd c2 h, fun h => absurd c1 h, fun h => absurd c1 (h.1 c2)⟩
    · rw [if_neg (fun h => c2 h.2), if_pos c1]
      exact ⟨fun _ => rfl, fun h => absurd c1 h, fun _ => rfl⟩
  · rw [if_neg (fun h => c1 h.1), if_neg c1]
    by_cases c2 : dv = 0
    · rw [if_pos c2]
      refine ⟨fun h => absurd c2 h, fun _ => rfl, fun _ => ?_⟩
      simp only []
      field_simp
    · rw [if_neg c2]
      exact ⟨fun _ => rfl, fun _ => rfl, fun h => absurd (h.2 c1) c2⟩

/-- **C68 (violation).** Without densities the default density per area is set, but the density per volume is left at zero. -/
theorem C68_default_density_violation (E11 E22 nu12 G12 t : ℝ) (m : Lamina ℝ) (h : mkMaterial E11 E22 nu12 G12 0 0 t = .ok m) :
    m.densityArea = 3005 / 10 ∧ m.densityVolume = 0 := by
  obtain ⟨p1, p2, p3, p4, pb, _⟩ := mkMaterial_inv h
  unfold mkMaterial at h
  rw [if_neg (not_le.2 p1), if_neg (not_le.2 p1), if_neg (not_le.2 p1), if_neg (not_lt.2 p2), if_neg (not_lt.2 p3), if_neg (not_le.2 p4)] at h
  simp only [] at h
  rw [if_neg pb] at h
  have h := Except.ok.inj h
  subst h
  simp

/-- The default lamina meets the hypotheses of `C68_positive_energy` and of `C68_laminate_energy`. -/
example : ∃ m, mkMaterial (130000000000 : ℝ) 9000000000 (3 / 10) 4000000000 0 0 (2 / 10000) = .ok m ∧
    Physical 130000000000 9000000000 (3 / 10) 4000000000 ∧ ([0, 45, 90, -45] : List ℤ) ≠ [] := by
  obtain ⟨m, hm⟩ := (C68_accepted 130000000000 9000000000 (3 / 10) 4000000000 0 0 (2 / 10000)).2 (by norm_num)
  exact ⟨m, hm, by unfold Physical; norm_num, by simp⟩

end Bella
