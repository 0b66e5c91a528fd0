import Verif.Props.Material
import Verif.Props.PanelsVanish
import Mathlib.NumberTheory.Real.Irrational
/-
C69: orthotropy parameters and penalties.
-/
namespace Bella

open Spec

/-- Product of a matrix and a vector. -/
def Sym3.app (A : Sym3 ℝ) (v : V3) : V3 :=
  ⟨A.a11 * v.x + A.a12 * v.y + A.a16 * v.g, A.a12 * v.x + A.a22 * v.y + A.a26 * v.g, A.a16 * v.x + A.a26 * v.y + A.a66 * v.g⟩

def dot (u v : V3) : ℝ := u.x * v.x + u.y * v.y + u.g * v.g

theorem V3.ext' {u v : V3} (h1 : u.x = v.x) (h2 : u.y = v.y) (h3 : u.g = v.g) : u = v := by
  cases u; cases v; simp_all

theorem inv_left (A I : Sym3 ℝ) (h : A.inv = .ok I) (v : V3) : I.app (A.app v) = v := by
  unfold Sym3.inv at h
  by_cases hd : A.det = 0
  · rw [if_pos hd] at h; cases h
  rw [if_neg hd] at h
  have h := Except.ok.inj h
  subst h
  have k : ∀ p q r x y z w : ℝ, p * x + q * y + r * z = A.det * w → p / A.det * x + q / A.det * y + r / A.det * z = w := by
    intro p q r x y z w e
    have : p / A.det * x + q / A.det * y + r / A.det * z = (p * x + q * y + r * z) / A.det := by ring
    rw [this, e, mul_div_cancel_left₀ _ hd]
  apply V3.ext'
  · exact k _ _ _ _ _ _ _ (by simp only [Sym3.app, Sym3.det]; ring)
  · exact k _ _ _ _ _ _ _ (by simp only [Sym3.app, Sym3.det]; ring)
  · exact k _ _ _ _ _ _ _ (by simp only [Sym3.app, Sym3.det]; ring)

theorem inv_right (A I : Sym3 ℝ) (h : A.inv = .ok I) (v : V3) : A.app (I.app v) = v := by
  unfold Sym3.inv at h
  by_cases hd : A.det = 0
  · rw [if_pos hd] at h; cases h
  rw [if_neg hd] at h
  have h := Except.ok.inj h
  subst h
  apply V3.ext'
  · simp only [Sym3.app]
    field_simp
    simp only [Sym3.det]
    ring
  · simp only [Sym3.app]
    field_simp
    simp only [Sym3.det]
    ring
  · simp only [Sym3.app]
    field_simp
    simp only [Sym3.det]
    ring

theorem sandwich_app (B C : Sym3 ℝ) (v : V3) : (B.sandwich C).app v = B.app (C.app (B.app v)) := by
  apply V3.ext'
  · simp only [Sym3.app, Sym3.sandwich]; ring
  · simp only [Sym3.app, Sym3.sandwich]; ring
  · simp only [Sym3.app, Sym3.sandwich]; ring

/-- Positive energy of every non-zero strain. -/
def Pos (A : Sym3 ℝ) : Prop := ∀ v : V3, ¬ (v.x = 0 ∧ v.y = 0 ∧ v.g = 0) → 0 < A.quad v

theorem Pos.minors {A : Sym3 ℝ} (h : Pos A) : 0 < A.a11 ∧ 0 < A.a22 ∧ 0 < A.a66 ∧ 0 < A.a11 * A.a22 - A.a12 * A.a12 ∧
    0 < A.a11 * A.a66 - A.a16 * A.a16 ∧ 0 < A.a22 * A.a66 - A.a26 * A.a26 ∧ 0 < A.det := by
  have h1 : 0 < A.a11 := by simpa [Sym3.quad, Spec.quad] using h ⟨1, 0, 0⟩ (by simp)
  have h2 : 0 < A.a22 := by simpa [Sym3.quad, Spec.quad] using h ⟨0, 1, 0⟩ (by simp)
  have h3 : 0 < A.a66 := by simpa [Sym3.quad, Spec.quad] using h ⟨0, 0, 1⟩ (by simp)
  have m1 : 0 < A.a11 * A.a22 - A.a12 * A.a12 := by
    have g := h ⟨- A.a12, A.a11, 0⟩ (by simp [h1.ne'])
    have e : A.quad ⟨- A.a12, A.a11, 0⟩ = A.a11 * (A.a11 * A.a22 - A.a12 * A.a12) := by simp only [Sym3.quad, Spec.quad]; ring
    rw [e] at g
    exact pos_of_mul_pos_right g h1.le
  have m2 : 0 < A.a11 * A.a66 - A.a16 * A.a16 := by
    have g := h ⟨- A.a16, 0, A.a11⟩ (by simp [h1.ne'])
    have e : A.quad ⟨- A.a16, 0, A.a11⟩ = A.a11 * (A.a11 * A.a66 - A.a16 * A.a16) := by simp only [Sym3.quad, Spec.quad]; ring
    rw [e] at g
    exact pos_of_mul_pos_right g h1.le
  have m3 : 0 < A.a22 * A.a66 - A.a26 * A.a26 := by
    have g := h ⟨0, - A.a26, A.a22⟩ (by simp [h2.ne'])
    have e : A.quad ⟨0, - A.a26, A.a22⟩ = A.a22 * (A.a22 * A.a66 - A.a26 * A.a26) := by simp only [Sym3.quad, Spec.quad]; ring
    rw [e] at g
    exact pos_of_mul_pos_right g h2.le
  refine ⟨h1, h2, h3, m1, m2, m3, ?_⟩
  have g := h ⟨A.a12 * A.a26 - A.a22 * A.a16, A.a12 * A.a16 - A.a11 * A.a26, A.a11 * A.a22 - A.a12 * A.a12⟩ (by simp [m1.ne'])
  have e : A.quad ⟨A.a12 * A.a26 - A.a22 * A.a16, A.a12 * A.a16 - A.a11 * A.a26, A.a11 * A.a22 - A.a12 * A.a12⟩ =
      (A.a11 * A.a22 - A.a12 * A.a12) * A.det := by simp only [Sym3.quad, Spec.quad, Sym3.det]; ring
  rw [e] at g
  exact pos_of_mul_pos_right g m1.le

theorem Pos.inv_ok {A : Sym3 ℝ} (h : Pos A) : ∃ I, A.inv = .ok I := by
  unfold Sym3.inv
  rw [if_neg h.minors.2.2.2.2.2.2.ne']
  exact ⟨_, rfl⟩

theorem quad_dot (A : Sym3 ℝ) (v : V3) : A.quad v = dot v (A.app v) := by
  simp only [Sym3.quad, Spec.quad, dot, Sym3.app]; ring

theorem bil_dot (A : Sym3 ℝ) (e k : V3) : A.bil e k = dot e (A.app k) := by
  simp only [Sym3.bil, Spec.bilin, dot, Sym3.app]; ring

def vneg (v : V3) : V3 := ⟨- v.x, - v.y, - v.g⟩

theorem app_vneg (A : Sym3 ℝ) (v : V3) : A.app (vneg v) = vneg (A.app v) := by
  apply V3.ext' <;> simp only [Sym3.app, vneg] <;> ring

theorem sub_app (A B : Sym3 ℝ) (v : V3) : (A.sub B).app v = vadd (-1) (A.app v) (B.app v) := by
  apply V3.ext' <;> simp only [Sym3.app, Sym3.sub, vadd] <;> ring

theorem app_sym (A : Sym3 ℝ) (u v : V3) : dot u (A.app v) = dot v (A.app u) := by
  simp only [dot, Sym3.app]; ring

/-- Static condensation of the curvatures keeps the energy positive. -/
theorem schur_pos {A B D : Sym3 ℝ} (h : ∀ e k : V3, ¬ (e.x = 0 ∧ e.y = 0 ∧ e.g = 0 ∧ k.x = 0 ∧ k.y = 0 ∧ k.g = 0) →
    0 < A.quad e + 2 * B.bil e k + D.quad k) {Di : Sym3 ℝ} (hD : D.inv = .ok Di) : Pos (A.sub (B.sandwich Di)) := by
  intro e he
  have g := h e (vneg (Di.app (B.app e))) (fun hh => he ⟨hh.1, hh.2.1, hh.2.2.1⟩)
  have e1 : (A.sub (B.sandwich Di)).quad e = A.quad e + 2 * B.bil e (vneg (Di.app (B.app e))) + D.quad (vneg (Di.app (B.app e))) := by
    rw [quad_dot, sub_app, sandwich_app, bil_dot, app_vneg, quad_dot D, app_vneg, inv_right D Di hD, quad_dot A]
    have s1 : dot e (B.app (Di.app (B.app e))) = dot (Di.app (B.app e)) (B.app e) := app_sym _ _ _
    have s2 : dot e (vneg (B.app (Di.app (B.app e)))) = - dot e (B.app (Di.app (B.app e))) := by
      simp only [dot, vneg]; ring
    have s3 : dot (vneg (Di.app (B.app e))) (vneg (B.app e)) = dot (Di.app (B.app e)) (B.app e) := by
      simp only [dot, vneg]; ring
    have s4 : dot e (vadd (-1) (A.app e) (B.app (Di.app (B.app e)))) = dot e (A.app e) - dot e (B.app (Di.app (B.app e))) := by
      simp only [dot, vadd]; ring
    rw [s2, s3, s4, s1]
    ring
  rw [e1]
  exact g

theorem stiff_pos {E11 E22 nu12 G12 dv da t : ℝ} {m : Lamina ℝ} (h : mkMaterial E11 E22 nu12 G12 dv da t = .ok m)
    (hp : Physical E11 E22 nu12 G12) (ss : List ℤ) (hss : ss ≠ []) :
    Pos (stiffA m (lampamR ss)) ∧ Pos (stiffD m (lampamR ss)) := by
  constructor
  · intro v hv
    have := positive_energy E11 E22 nu12 G12 dv da t m h hp ss hss v ⟨0, 0, 0⟩ (fun hh => hv ⟨hh.1, hh.2.1, hh.2.2.1⟩)
    simpa [Sym3.bil, Spec.bilin, Sym3.quad, Spec.quad] using this
  · intro v hv
    have := positive_energy E11 E22 nu12 G12 dv da t m h hp ss hss ⟨0, 0, 0⟩ v (fun hh => hv hh.2.2.2)
    simpa [Sym3.bil, Spec.bilin, Sym3.quad, Spec.quad] using this

/-- Strains `e`, curvatures `k` of a laminate under the membrane loads `N` and no moments. -/
def MembraneLoad (A B D : Sym3 ℝ) (N e k : V3) : Prop :=
  N.x = (A.app e).x + (B.app k).x ∧ N.y = (A.app e).y + (B.app k).y ∧ N.g = (A.app e).g + (B.app k).g ∧
  0 = (B.app e).x + (D.app k).x ∧ 0 = (B.app e).y + (D.app k).y ∧ 0 = (B.app e).g + (D.app k).g

theorem membrane_solution {A B D Di a : Sym3 ℝ} (hD : D.inv = .ok Di) (ha : (A.sub (B.sandwich Di)).inv = .ok a) {N e k : V3}
    (h : MembraneLoad A B D N e k) : e = a.app N := by
  obtain ⟨h1, h2, h3, h4, h5, h6⟩ := h
  have hk : k = vneg (Di.app (B.app e)) := by
    have : D.app k = vneg (B.app e) := V3.ext' (by simp only [vneg]; linarith) (by simp only [vneg]; linarith) (by simp only [vneg]; linarith)
    rw [← app_vneg, ← this, inv_left D Di hD]
  have hN : N = (A.sub (B.sandwich Di)).app e := by
    rw [sub_app, sandwich_app]
    rw [hk, app_vneg] at h1 h2 h3
    exact V3.ext' (by rw [h1]; simp only [vadd, vneg]; ring) (by rw [h2]; simp only [vadd, vneg]; ring)
      (by rw [h3]; simp only [vadd, vneg]; ring)
  rw [hN, inv_left _ a ha]

theorem npDiv_div (x y d : ℝ) (hd : d ≠ 0) : npDiv (x / d) (y / d) = npDiv x y := by
  unfold npDiv
  by_cases h : y = 0
  · rw [if_pos h, if_pos (by rw [h, zero_div])]
  · rw [if_neg h, if_neg (div_ne_zero h hd), div_div_div_cancel_right₀ hd]

theorem npDiv_pos (x y : ℝ) (h : 0 < y) : npDiv x y = some |x / y| := by
  unfold npDiv
  rw [if_neg h.ne']

theorem Pos.inv_pos {A I : Sym3 ℝ} (h : Pos A) (hI : A.inv = .ok I) : Pos I := by
  intro v hv
  have e : I.quad v = A.quad (I.app v) := by
    rw [quad_dot, quad_dot, inv_right A I hI]
    simp only [dot]; ring
  rw [e]
  apply h
  intro hz
  apply hv
  have : v = A.app (I.app v) := (inv_right A I hI v).symm
  rw [this]
  simp only [Sym3.app]
  simp only [Sym3.app] at hz
  rw [hz.1, hz.2.1, hz.2.2]
  simp

/-- The coupling lamination parameters of a symmetric laminate vanish. -/
theorem sym_coupling (ss : List ℤ) (hs : Spec.Symmetric ss) (k : Nat) (h1 : 4 ≤ k) (h2 : k < 8) : lampamR ss k = 0 := by
  unfold lampamR
  have : k / 4 = 1 := by omega
  rw [this, sym_coupling_zero ss hs (trig (k % 4)), zero_div]

/-- **C69.** For every laminate and every physically meaningful material the twelve parameters are computed without exception. The first six
are the ratios of the shear-extension stiffnesses to the other ones, the last six are the same ratios for the compliances `a` of the laminate
under membrane loads without moments; all but the four with the stiffness (compliance) of index 12 as denominator are finite. The variant
for symmetric laminates agrees with the general one. -/
theorem C69_compliance (E11 E22 nu12 G12 dv da t : ℝ) (m : Lamina ℝ) (h : mkMaterial E11 E22 nu12 G12 dv da t = .ok m)
    (hp : Physical E11 E22 nu12 G12) (ss : List ℤ) (hss : ss ≠ []) (sym : Bool) (hs : sym = true → Spec.Symmetric ss)
    (A B D : Sym3 ℝ) (hA : A = stiffA m (lampamR ss))
    (hB : B = stiffness (1 / 4) 0 m.U2 m.U3 0 0 (lampamR ss 4) (lampamR ss 5) (lampamR ss 6) (lampamR ss 7))
    (hD : D = stiffness (1 / 12) m.U1 m.U2 m.U3 m.U4 m.U5 (lampamR ss 8) (lampamR ss 9) (lampamR ss 10) (lampamR ss 11)) :
    ∃ a : Sym3 ℝ, 0 < a.a11 ∧ 0 < a.a22 ∧ 0 < a.a66 ∧ (∀ N e k, MembraneLoad A B D N e k → e = a.app N) ∧
      (∀ N, ∃ e k, MembraneLoad A B D N e k) ∧
      ipoParam112 m (lampamR ss) sym = .ok [some |A.a16 / A.a11|, (if A.a12 = 0 then none else some |A.a16 / A.a12|), some |A.a16 / A.a66|,
        (if A.a12 = 0 then none else some |A.a26 / A.a12|), some |A.a26 / A.a22|, some |A.a26 / A.a66|,
        some |a.a16 / a.a11|, (if a.a12 = 0 then none else some |a.a16 / a.a12|), some |a.a16 / a.a66|,
        (if a.a12 = 0 then none else some |a.a26 / a.a12|), some |a.a26 / a.a22|, some |a.a26 / a.a66|] := by
  have hA' : Pos A := hA ▸ (stiff_pos h hp ss hss).1
  have hD' : Pos D := hD ▸ (stiff_pos h hp ss hss).2
  obtain ⟨Di, eD⟩ := hD'.inv_ok
  have hS : Pos (A.sub (B.sandwich Di)) := by
    refine schur_pos (fun e k hne => ?_) eD
    subst hA hB hD
    exact positive_energy E11 E22 nu12 G12 dv da t m h hp ss hss e k hne
  obtain ⟨a, ea⟩ := hS.inv_ok
  have ha := hS.inv_pos ea
  have m1 := hA'.minors
  have m2 := ha.minors
  have e16 : ipoParam16 m (lampamR ss) = [some |A.a16 / A.a11|, (if A.a12 = 0 then none else some |A.a16 / A.a12|), some |A.a16 / A.a66|,
        (if A.a12 = 0 then none else some |A.a26 / A.a12|), some |A.a26 / A.a22|, some |A.a26 / A.a66|] := by
    unfold ipoParam16
    simp only [← hA]
    rw [npDiv_pos _ _ m1.1, npDiv_pos _ _ m1.2.1, npDiv_pos _ _ m1.2.2.1, npDiv_pos _ _ m1.2.2.1]
    rfl
  have gen : [npDiv a.a16 a.a11, npDiv a.a16 a.a12, npDiv a.a16 a.a66, npDiv a.a26 a.a12, npDiv a.a26 a.a22, npDiv a.a26 a.a66] =
      [some |a.a16 / a.a11|, (if a.a12 = 0 then none else some |a.a16 / a.a12|), some |a.a16 / a.a66|,
        (if a.a12 = 0 then none else some |a.a26 / a.a12|), some |a.a26 / a.a22|, some |a.a26 / a.a66|] := by
    rw [npDiv_pos _ _ m2.1, npDiv_pos _ _ m2.2.1, npDiv_pos _ _ m2.2.2.1, npDiv_pos _ _ m2.2.2.1]
    rfl
  refine ⟨a, m2.1, m2.2.1, m2.2.2.1, fun N e k hl => membrane_solution eD ea hl, fun N => ?_, ?_⟩
  · refine ⟨a.app N, vneg (Di.app (B.app (a.app N))), ?_⟩
    have g1 := inv_right _ a ea N
    rw [sub_app, sandwich_app] at g1
    have g2 := inv_right D Di eD (B.app (a.app N))
    unfold MembraneLoad
    rw [app_vneg, app_vneg, g2]
    have gx := congrArg V3.x g1
    have gy := congrArg V3.y g1
    have gg := congrArg V3.g g1
    simp only [vadd] at gx gy gg
    simp only [vneg]
    refine ⟨?_, ?_, ?_, ?_, ?_, ?_⟩ <;> linarith
  · have e712 : ipoParam712 m (lampamR ss) sym = .ok [some |a.a16 / a.a11|, (if a.a12 = 0 then none else some |a.a16 / a.a12|),
        some |a.a16 / a.a66|, (if a.a12 = 0 then none else some |a.a26 / a.a12|), some |a.a26 / a.a22|, some |a.a26 / a.a66|] := by
      rw [← gen]
      unfold ipoParam712
      simp only [← hA, ← hB, ← hD]
      cases sym with
      | false =>
        rw [if_neg (by simp), eD]
        simp only [bind, Except.bind]
        rw [ea]
      | true =>
        rw [if_pos rfl]
        have hs := hs rfl
        have z := sym_coupling ss hs
        have hSA : A.sub (B.sandwich Di) = A := by
          rw [hB, z 4 (by norm_num) (by norm_num), z 5 (by norm_num) (by norm_num), z 6 (by norm_num) (by norm_num),
            z 7 (by norm_num) (by norm_num)]
          simp [Sym3.sub, Sym3.sandwich, stiffness]
        rw [hSA] at ea
        unfold Sym3.inv at ea
        have hd : A.det ≠ 0 := m1.2.2.2.2.2.2.ne'
        rw [if_neg hd] at ea
        have ea := Except.ok.inj ea
        subst ea
        simp only []
        rw [npDiv_div _ _ _ hd, npDiv_div _ _ _ hd, npDiv_div _ _ _ hd, npDiv_div _ _ _ hd, npDiv_div _ _ _ hd, npDiv_div _ _ _ hd]
        have f1 : - (A.a12 * A.a66 - A.a26 * A.a16) = A.a16 * A.a26 - A.a12 * A.a66 := by ring
        have f2 : - (A.a11 * A.a26 - A.a12 * A.a16) = A.a12 * A.a16 - A.a11 * A.a26 := by ring
        rw [f1, f2]
    unfold ipoParam112
    rw [e712, e16]
    rfl

/-! ### Zero parameters -/

/-- Every parameter that is a finite number is zero. -/
def AllZero (ps : List (Option ℝ)) : Prop := ∀ p ∈ ps, p = none ∨ p = some 0

theorem abs_div_zero (x y : ℝ) (h : 0 < y) : |x / y| = 0 ↔ x = 0 := by
  rw [abs_eq_zero, div_eq_zero_iff]
  constructor
  · rintro (h' | h')
    · exact h'
    · exact absurd h' h.ne'
  · exact Or.inl

theorem allZero_six (a : Sym3 ℝ) (h1 : 0 < a.a11) (h2 : 0 < a.a22) (h3 : 0 < a.a66) :
    AllZero [some |a.a16 / a.a11|, (if a.a12 = 0 then none else some |a.a16 / a.a12|), some |a.a16 / a.a66|,
        (if a.a12 = 0 then none else some |a.a26 / a.a12|), some |a.a26 / a.a22|, some |a.a26 / a.a66|] ↔ a.a16 = 0 ∧ a.a26 = 0 := by
  constructor
  · intro h
    have g1 := h _ (List.mem_cons_self)
    have g2 := h (some |a.a26 / a.a22|) (by simp)
    simp only [reduceCtorEq, Option.some.injEq, false_or] at g1 g2
    exact ⟨(abs_div_zero _ _ h1).1 g1, (abs_div_zero _ _ h2).1 g2⟩
  · rintro ⟨z1, z2⟩ p hp
    rw [z1, z2] at hp
    simp only [zero_div, abs_zero, List.mem_cons, List.not_mem_nil, or_false] at hp
    rcases hp with rfl | rfl | rfl | rfl | rfl | rfl
    · exact Or.inr rfl
    · split_ifs
      · exact Or.inl rfl
      · exact Or.inr rfl
    · exact Or.inr rfl
    · split_ifs
      · exact Or.inl rfl
      · exact Or.inr rfl
    · exact Or.inr rfl
    · exact Or.inr rfl

/-- **C69.** For a physically meaningful material (with `U2` and `U3` not zero), the six stiffness parameters of any laminate are all zero
exactly when the lamination parameters 3 and 4 are zero; for symmetric laminates so are all the twelve. -/
theorem C69_zero_iff (E11 E22 nu12 G12 dv da t : ℝ) (m : Lamina ℝ) (h : mkMaterial E11 E22 nu12 G12 dv da t = .ok m)
    (hp : Physical E11 E22 nu12 G12) (hU2 : m.U2 ≠ 0) (hU3 : m.U3 ≠ 0) (ss : List ℤ) (hss : ss ≠ []) :
    (AllZero (ipoParam16 m (lampamR ss)) ↔ lampamR ss 2 = 0 ∧ lampamR ss 3 = 0) ∧
    (Spec.Symmetric ss → ∃ ps, ipoParam112 m (lampamR ss) true = .ok ps ∧ ps.length = 12 ∧
      (AllZero ps ↔ lampamR ss 2 = 0 ∧ lampamR ss 3 = 0)) := by
  have hA := (stiff_pos h hp ss hss).1
  have m1 := hA.minors
  have hz : (stiffA m (lampamR ss)).a16 = 0 ∧ (stiffA m (lampamR ss)).a26 = 0 ↔ lampamR ss 2 = 0 ∧ lampamR ss 3 = 0 := by
    simp only [stiffA, stiffness]
    constructor
    · rintro ⟨h1, h2⟩
      have p1 : m.U2 * lampamR ss 2 = 0 := by linarith
      have p2 : m.U3 * lampamR ss 3 = 0 := by linarith
      exact ⟨(mul_eq_zero.1 p1).resolve_left hU2, (mul_eq_zero.1 p2).resolve_left hU3⟩
    · rintro ⟨h1, h2⟩
      rw [h1, h2]
      simp
  have e16 : AllZero (ipoParam16 m (lampamR ss)) ↔ lampamR ss 2 = 0 ∧ lampamR ss 3 = 0 := by
    rw [← hz, ← allZero_six _ m1.1 m1.2.1 m1.2.2.1]
    unfold ipoParam16
    simp only []
    rw [npDiv_pos _ _ m1.1, npDiv_pos _ _ m1.2.1, npDiv_pos _ _ m1.2.2.1, npDiv_pos _ _ m1.2.2.1]
    rfl
  refine ⟨e16, fun hs => ?_⟩
  have hd := m1.2.2.2.2.2.2
  have e712 : ipoParam712 m (lampamR ss) true = .ok [
      npDiv ((stiffA m (lampamR ss)).a12 * (stiffA m (lampamR ss)).a26 - (stiffA m (lampamR ss)).a22 * (stiffA m (lampamR ss)).a16)
        ((stiffA m (lampamR ss)).a22 * (stiffA m (lampamR ss)).a66 - (stiffA m (lampamR ss)).a26 * (stiffA m (lampamR ss)).a26),
      npDiv ((stiffA m (lampamR ss)).a12 * (stiffA m (lampamR ss)).a26 - (stiffA m (lampamR ss)).a22 * (stiffA m (lampamR ss)).a16)
        ((stiffA m (lampamR ss)).a16 * (stiffA m (lampamR ss)).a26 - (stiffA m (lampamR ss)).a12 * (stiffA m (lampamR ss)).a66),
      npDiv ((stiffA m (lampamR ss)).a12 * (stiffA m (lampamR ss)).a26 - (stiffA m (lampamR ss)).a22 * (stiffA m (lampamR ss)).a16)
        ((stiffA m (lampamR ss)).a11 * (stiffA m (lampamR ss)).a22 - (stiffA m (lampamR ss)).a12 * (stiffA m (lampamR ss)).a12),
      npDiv ((stiffA m (lampamR ss)).a12 * (stiffA m (lampamR ss)).a16 - (stiffA m (lampamR ss)).a11 * (stiffA m (lampamR ss)).a26)
        ((stiffA m (lampamR ss)).a16 * (stiffA m (lampamR ss)).a26 - (stiffA m (lampamR ss)).a12 * (stiffA m (lampamR ss)).a66),
      npDiv ((stiffA m (lampamR ss)).a12 * (stiffA m (lampamR ss)).a16 - (stiffA m (lampamR ss)).a11 * (stiffA m (lampamR ss)).a26)
        ((stiffA m (lampamR ss)).a11 * (stiffA m (lampamR ss)).a66 - (stiffA m (lampamR ss)).a16 * (stiffA m (lampamR ss)).a16),
      npDiv ((stiffA m (lampamR ss)).a12 * (stiffA m (lampamR ss)).a16 - (stiffA m (lampamR ss)).a11 * (stiffA m (lampamR ss)).a26)
        ((stiffA m (lampamR ss)).a11 * (stiffA m (lampamR ss)).a22 - (stiffA m (lampamR ss)).a12 * (stiffA m (lampamR ss)).a12)] := rfl
  refine ⟨_, by unfold ipoParam112; rw [e712]; rfl, by simp [ipoParam16], ?_⟩
  rw [← e16]
  constructor
  · intro hh p hp'
    exact hh p (List.mem_append_left _ hp')
  · intro hh p hp'
    rcases List.mem_append.1 hp' with h' | h'
    · exact hh p h'
    · obtain ⟨z1, z2⟩ := hz.2 (e16.1 hh)
      rw [z1, z2] at h'
      simp only [mul_zero, sub_zero] at h'
      have key : ∀ y : ℝ, npDiv 0 y = none ∨ npDiv 0 y = some 0 := by
        intro y
        unfold npDiv
        split_ifs
        · exact Or.inl rfl
        · right; simp
      simp only [List.mem_cons, List.not_mem_nil, or_false] at h'
      rcases h' with rfl | rfl | rfl | rfl | rfl | rfl <;> exact key _

/-- In-plane lamination parameters 3 and 4 as sums over the plies. -/
theorem lampam_zero_iff (ss : List ℤ) (hss : ss ≠ []) (k : Nat) (hk : k < 4) : lampamR ss k = 0 ↔ (ss.map (trig k)).sum = 0 := by
  have hn : (ss.length : ℝ) ≠ 0 := by exact_mod_cast (List.length_pos_iff.2 hss).ne'
  rw [lampamR_inplane ss k hk, div_eq_zero_iff]
  tauto

theorem balanced_lampam (ss : List ℤ) (hss : ss ≠ []) (hb : Balanced ss) : lampamR ss 2 = 0 ∧ lampamR ss 3 = 0 := by
  rw [lampam_zero_iff ss hss 2 (by norm_num), lampam_zero_iff ss hss 3 (by norm_num)]
  obtain ⟨a1, a2, a3⟩ := trig_odd 2 (by tauto)
  obtain ⟨b1, b2, b3⟩ := trig_odd 3 (by tauto)
  exact ⟨balanced_sum_zero ss hb _ a1 a2 a3, balanced_sum_zero ss hb _ b1 b2 b3⟩

/-- **C69.** All the orthotropy parameters of a symmetric and balanced laminate are zero, whatever its fibre angles. -/
theorem C69_balanced_zero (E11 E22 nu12 G12 dv da t : ℝ) (m : Lamina ℝ) (h : mkMaterial E11 E22 nu12 G12 dv da t = .ok m)
    (hp : Physical E11 E22 nu12 G12) (ss : List ℤ) (hss : ss ≠ []) (hs : Spec.Symmetric ss) (hb : Balanced ss) (sym : Bool) :
    ∃ ps, ipoParam112 m (lampamR ss) sym = .ok ps ∧ ps.length = 12 ∧ AllZero ps := by
  obtain ⟨l2, l3⟩ := balanced_lampam ss hss hb
  obtain ⟨a, a1, a2, a3, hsol, hex, e⟩ := C69_compliance E11 E22 nu12 G12 dv da t m h hp ss hss sym (fun _ => hs) _ _ _ rfl rfl rfl
  refine ⟨_, e, rfl, ?_⟩
  have hA := (stiff_pos h hp ss hss).1
  have m1 := hA.minors
  have z1 : (stiffA m (lampamR ss)).a16 = 0 := by simp [stiffA, stiffness, l2, l3]
  have z2 : (stiffA m (lampamR ss)).a26 = 0 := by simp [stiffA, stiffness, l2, l3]
  have hB : ∀ v : V3, (stiffB m (lampamR ss)).app v = ⟨0, 0, 0⟩ := by
    intro v
    have z := sym_coupling ss hs
    simp [stiffB, stiffness, Sym3.app, z 4 (by norm_num) (by norm_num), z 5 (by norm_num) (by norm_num),
      z 6 (by norm_num) (by norm_num), z 7 (by norm_num) (by norm_num)]
  -- the compliances of index 16 and 26 are zero: a pure shear load gives a pure shear strain
  have hshear : a.app ⟨0, 0, (stiffA m (lampamR ss)).a66⟩ = ⟨0, 0, 1⟩ := by
    have hl : MembraneLoad (stiffA m (lampamR ss)) (stiffB m (lampamR ss)) (stiffD m (lampamR ss))
        ⟨0, 0, (stiffA m (lampamR ss)).a66⟩ ⟨0, 0, 1⟩ ⟨0, 0, 0⟩ := by
      unfold MembraneLoad
      rw [hB, hB]
      simp [Sym3.app, z1, z2]
    exact (hsol _ _ _ hl).symm
  have s1 := congrArg V3.x hshear
  have s2 := congrArg V3.y hshear
  simp only [Sym3.app, mul_zero, zero_add] at s1 s2
  have y1 : a.a16 = 0 := (mul_eq_zero.1 s1).resolve_right m1.2.2.1.ne'
  have y2 : a.a26 = 0 := (mul_eq_zero.1 s2).resolve_right m1.2.2.1.ne'
  have f1 := (allZero_six _ m1.1 m1.2.1 m1.2.2.1).2 ⟨z1, z2⟩
  have f2 := (allZero_six a a1 a2 a3).2 ⟨y1, y2⟩
  intro p hp'
  have : p ∈ [some |(stiffA m (lampamR ss)).a16 / (stiffA m (lampamR ss)).a11|, (if (stiffA m (lampamR ss)).a12 = 0 then none else
        some |(stiffA m (lampamR ss)).a16 / (stiffA m (lampamR ss)).a12|), some |(stiffA m (lampamR ss)).a16 / (stiffA m (lampamR ss)).a66|,
        (if (stiffA m (lampamR ss)).a12 = 0 then none else some |(stiffA m (lampamR ss)).a26 / (stiffA m (lampamR ss)).a12|),
        some |(stiffA m (lampamR ss)).a26 / (stiffA m (lampamR ss)).a22|, some |(stiffA m (lampamR ss)).a26 / (stiffA m (lampamR ss)).a66|] ++
        [some |a.a16 / a.a11|, (if a.a12 = 0 then none else some |a.a16 / a.a12|), some |a.a16 / a.a66|,
        (if a.a12 = 0 then none else some |a.a26 / a.a12|), some |a.a26 / a.a22|, some |a.a26 / a.a66|] := hp'
  rcases List.mem_append.1 this with h' | h'
  · exact f1 p h'
  · exact f2 p h'

/-! ### Penalties -/

/-- **C69.** The balance penalty is not negative, and zero exactly when the lamination parameters 3 and 4 are zero; it is zero for every
balanced laminate. -/
theorem C69_balance_penalty (ss : List ℤ) (hss : ss ≠ []) (areas : ℝ) (ha : 0 < areas) :
    0 ≤ penaltyIpo (lampamR ss) areas ∧ (penaltyIpo (lampamR ss) areas = 0 ↔ lampamR ss 2 = 0 ∧ lampamR ss 3 = 0) ∧
    (Balanced ss → penaltyIpo (lampamR ss) areas = 0) := by
  have key : penaltyIpo (lampamR ss) areas = 0 ↔ lampamR ss 2 = 0 ∧ lampamR ss 3 = 0 := by
    unfold penaltyIpo
    rw [mul_eq_zero]
    constructor
    · rintro (h | h)
      · exact absurd h ha.ne'
      · have := abs_nonneg (lampamR ss 2)
        have := abs_nonneg (lampamR ss 3)
        exact ⟨abs_eq_zero.1 (by linarith), abs_eq_zero.1 (by linarith)⟩
    · rintro ⟨h1, h2⟩
      right
      rw [h1, h2]
      simp
  refine ⟨?_, key, fun hb => key.2 (balanced_lampam ss hss hb)⟩
  unfold penaltyIpo
  positivity

/-- Fibre angles for which the lamination parameters 3 and 4 detect an imbalance. -/
def Angles30 (ss : List ℤ) : Prop := ∀ x ∈ ss, x = 0 ∨ x = 30 ∨ x = -30 ∨ x = 45 ∨ x = -45 ∨ x = 60 ∨ x = -60 ∨ x = 90

theorem trig_values : trig 2 30 = Real.sqrt 3 / 2 ∧ trig 2 45 = 1 ∧ trig 2 60 = Real.sqrt 3 / 2 ∧ trig 3 30 = Real.sqrt 3 / 2 ∧ trig 3 45 = 0 ∧
    trig 3 60 = - (Real.sqrt 3 / 2) := by
  refine ⟨?_, ?_, ?_, ?_, trig_std 45 (by tauto), ?_⟩
  · rw [trig_two, show 2 * (((30 : ℤ) : ℝ) * Real.pi / 180) = Real.pi / 3 by push_cast; ring, Real.sin_pi_div_three]
  · rw [trig_two, show 2 * (((45 : ℤ) : ℝ) * Real.pi / 180) = Real.pi / 2 by push_cast; ring, Real.sin_pi_div_two]
  · rw [trig_two, show 2 * (((60 : ℤ) : ℝ) * Real.pi / 180) = Real.pi - Real.pi / 3 by push_cast; ring, Real.sin_pi_sub, Real.sin_pi_div_three]
  · rw [trig_three, show 4 * (((30 : ℤ) : ℝ) * Real.pi / 180) = Real.pi - Real.pi / 3 by push_cast; ring, Real.sin_pi_sub,
      Real.sin_pi_div_three]
  · rw [trig_three, show 4 * (((60 : ℤ) : ℝ) * Real.pi / 180) = Real.pi / 3 + Real.pi by push_cast; ring, Real.sin_add_pi,
      Real.sin_pi_div_three]

theorem sums30 (ss : List ℤ) (h : Angles30 ss) :
    (ss.map (trig 2)).sum = (ss.count 45 - ss.count (-45) : ℝ) + Real.sqrt 3 / 2 * ((ss.count 30 - ss.count (-30)) + (ss.count 60 - ss.count (-60))) ∧
    (ss.map (trig 3)).sum = Real.sqrt 3 / 2 * ((ss.count 30 - ss.count (-30) : ℝ) - (ss.count 60 - ss.count (-60))) := by
  obtain ⟨v1, v2, v3, v4, v5, v6⟩ := trig_values
  obtain ⟨a1, a2, a3⟩ := trig_odd 2 (by tauto)
  obtain ⟨b1, b2, b3⟩ := trig_odd 3 (by tauto)
  induction ss with
  | nil => simp
  | cons x t ih =>
    obtain ⟨i1, i2⟩ := ih (fun y hy => h y (List.mem_cons_of_mem _ hy))
    rw [List.map_cons, List.sum_cons, List.map_cons, List.sum_cons, i1, i2]
    rcases h x List.mem_cons_self with rfl | rfl | rfl | rfl | rfl | rfl | rfl | rfl
    · simp [List.count_cons, a2, b2]
    · simp [List.count_cons, v1, v4]; constructor <;> ring
    · simp [List.count_cons, a1, b1, v1, v4]; constructor <;> ring
    · simp [List.count_cons, v2, v5]; ring
    · simp [List.count_cons, a1, b1, v2, v5]; ring
    · simp [List.count_cons, v3, v6]; constructor <;> ring
    · simp [List.count_cons, a1, b1, v3, v6]; constructor <;> ring
    · simp [List.count_cons, a3, b3]

/-- **C69.** For the fibre angles 0, ±30, ±45, ±60 and 90 the balance penalty is zero exactly for the balanced laminates. -/
theorem C69_penalty_detects (ss : List ℤ) (hss : ss ≠ []) (h : Angles30 ss) (areas : ℝ) (ha : 0 < areas) :
    penaltyIpo (lampamR ss) areas = 0 ↔ Balanced ss := by
  refine ⟨fun hz => ?_, (C69_balance_penalty ss hss areas ha).2.2⟩
  obtain ⟨l2, l3⟩ := (C69_balance_penalty ss hss areas ha).2.1.1 hz
  rw [lampam_zero_iff ss hss 2 (by norm_num)] at l2
  rw [lampam_zero_iff ss hss 3 (by norm_num)] at l3
  obtain ⟨s1, s2⟩ := sums30 ss h
  rw [s1] at l2
  rw [s2] at l3
  have h3 : 0 < Real.sqrt 3 := Real.sqrt_pos.2 (by norm_num)
  have d1 : (ss.count 30 - ss.count (-30) : ℝ) = ss.count 60 - ss.count (-60) := by
    have := (mul_eq_zero.1 l3).resolve_left (by positivity)
    linarith
  have d2 : (ss.count 45 - ss.count (-45) : ℝ) + Real.sqrt 3 * (ss.count 60 - ss.count (-60)) = 0 := by
    rw [d1] at l2
    linarith
  have d3 : (ss.count 60 : ℤ) - ss.count (-60) = 0 := by
    by_contra hne
    have hne' : ((ss.count 60 : ℤ) - ss.count (-60) : ℤ) ≠ 0 := hne
    have hr : (((ss.count 60 : ℤ) - ss.count (-60) : ℤ) : ℝ) ≠ 0 := by exact_mod_cast hne'
    have irr := Nat.Prime.irrational_sqrt Nat.prime_three
    apply irr
    refine ⟨(((ss.count (-45) : ℤ) - ss.count 45 : ℤ) : ℚ) / (((ss.count 60 : ℤ) - ss.count (-60) : ℤ) : ℚ), ?_⟩
    push_cast
    push_cast at hr
    rw [div_eq_iff hr]
    linarith
  have e60 : ss.count 60 = ss.count (-60) := by omega
  have e60r : (ss.count 60 : ℝ) = ss.count (-60) := by exact_mod_cast e60
  have e30 : ss.count 30 = ss.count (-30) := by
    have : (ss.count 30 : ℝ) = ss.count (-30) := by rw [e60r] at d1; linarith
    exact_mod_cast this
  have e45 : ss.count 45 = ss.count (-45) := by
    have : (ss.count 45 : ℝ) = ss.count (-45) := by rw [e60r] at d2; linarith
    exact_mod_cast this
  intro x x0 x90 xm90
  by_cases hx : x = 30 ∨ x = -30 ∨ x = 45 ∨ x = -45 ∨ x = 60 ∨ x = -60
  · rcases hx with rfl | rfl | rfl | rfl | rfl | rfl
    · exact e30
    · simpa using e30.symm
    · exact e45
    · simpa using e45.symm
    · exact e60
    · simpa using e60.symm
  · push Not at hx
    obtain ⟨n1, n2, n3, n4, n5, n6⟩ := hx
    rw [List.count_eq_zero.2 (fun hm => ?_), List.count_eq_zero.2 (fun hm => ?_)]
    · rcases h _ hm with h' | h' | h' | h' | h' | h' | h' | h' <;> omega
    · rcases h _ hm with h' | h' | h' | h' | h' | h' | h' | h' <;> omega

theorem trig_lam15 : (([45, -15, -75] : List ℤ).map (trig 2)).sum = 0 ∧ (([45, -15, -75] : List ℤ).map (trig 3)).sum = 0 := by
  have s1 : trig 2 (-15) = - (1 / 2) := by
    rw [trig_two, show 2 * (((-15 : ℤ) : ℝ) * Real.pi / 180) = - (Real.pi / 6) by push_cast; ring, Real.sin_neg, Real.sin_pi_div_six]
  have s2 : trig 2 (-75) = - (1 / 2) := by
    rw [trig_two, show 2 * (((-75 : ℤ) : ℝ) * Real.pi / 180) = - (Real.pi - Real.pi / 6) by push_cast; ring, Real.sin_neg, Real.sin_pi_sub,
      Real.sin_pi_div_six]
  have s3 : trig 3 (-15) = - (Real.sqrt 3 / 2) := by
    rw [trig_three, show 4 * (((-15 : ℤ) : ℝ) * Real.pi / 180) = - (Real.pi / 3) by push_cast; ring, Real.sin_neg, Real.sin_pi_div_three]
  have s4 : trig 3 (-75) = Real.sqrt 3 / 2 := by
    rw [trig_three, show 4 * (((-75 : ℤ) : ℝ) * Real.pi / 180) = Real.pi / 3 - 2 * Real.pi by push_cast; ring, Real.sin_sub_two_pi,
      Real.sin_pi_div_three]
  obtain ⟨_, v2, _, _, v5, _⟩ := trig_values
  simp only [List.map_cons, List.map_nil, List.sum_cons, List.sum_nil, s1, s2, s3, s4, v2, v5]
  constructor <;> ring

/-- **C69 (violation).** "Unbalanced laminates get a balance penalty": with other fibre angles an unbalanced laminate may have none. -/
theorem C69_undetected_violation : ¬ Balanced [45, -15, -75] ∧ penaltyIpo (lampamR [45, -15, -75]) (1 : ℝ) = 0 := by
  constructor
  · intro h
    have := h 45 (by norm_num) (by norm_num) (by norm_num)
    revert this
    decide
  · rw [(C69_balance_penalty _ (by simp) 1 one_pos).2.1, lampam_zero_iff _ (by simp) 2 (by norm_num), lampam_zero_iff _ (by simp) 3 (by norm_num)]
    exact trig_lam15

/-- **C69.** The out-of-plane orthotropy penalty is zero when it is not requested; otherwise it is not negative, and zero exactly when the
lamination parameters 11 and 12 are zero. -/
theorem C69_oopo_penalty (c : Cons) (l : Nat → ℝ) (k : ℝ) (hk : 0 < k) :
    (c.oopo = false → penaltyOopo c l k = 0) ∧ 0 ≤ penaltyOopo c l k ∧
    (c.oopo = true → (penaltyOopo c l k = 0 ↔ l 10 = 0 ∧ l 11 = 0)) := by
  unfold penaltyOopo
  have i1 := abs_nonneg (l 10)
  have i2 := abs_nonneg (l 11)
  refine ⟨fun h => by simp [h], ?_, fun h => ?_⟩
  · split_ifs
    · positivity
    · simp
  · rw [if_pos h, mul_eq_zero]
    constructor
    · rintro (h | h)
      · exact absurd h hk.ne'
      · exact ⟨abs_eq_zero.1 (by linarith), abs_eq_zero.1 (by linarith)⟩
    · rintro ⟨h1, h2⟩
      right
      rw [h1, h2]
      simp

theorem foldl_max_spec (l : List ℝ) (x : ℝ) : x ≤ l.foldl max x ∧ (∀ y ∈ l, y ≤ l.foldl max x) ∧ (l.foldl max x = x ∨ l.foldl max x ∈ l) := by
  induction l generalizing x with
  | nil => simp
  | cons b l ih =>
    rw [List.foldl_cons]
    obtain ⟨h1, h2, h3⟩ := ih (max x b)
    refine ⟨(le_max_left _ _).trans h1, fun y hy => ?_, ?_⟩
    · rcases List.mem_cons.1 hy with rfl | hy
      · exact (le_max_right _ _).trans h1
      · exact h2 y hy
    · rcases h3 with h | h
      · rcases max_choice x b with h' | h'
        · left; rw [h, h']
        · right; rw [h, h']; simp
      · right; exact List.mem_cons_of_mem _ h

/-- **C69.** The penalty on a non-empty array of orthotropy parameters is the largest absolute value over the number of parameters. -/
theorem C69_param_penalty (ps : List ℝ) (hps : ps ≠ []) (thr : ℝ) : ∃ p, penaltyIpoParam ps thr = .ok p ∧
    IsGreatest {x | ∃ y ∈ ps, x = |y|} (p * ps.length) ∧ (p = 0 ↔ ∀ y ∈ ps, y = 0) := by
  cases ps with
  | nil => exact absurd rfl hps
  | cons a t =>
    have hn : ((a :: t).length : ℝ) ≠ 0 := by simp; positivity
    obtain ⟨g1, g2, g3⟩ := foldl_max_spec (t.map (fun x : ℝ => max 0 |x|)) (max 0 |a|)
    have hm : ∀ x : ℝ, max 0 |x| = |x| := fun x => max_eq_right (abs_nonneg x)
    simp only [hm] at g1 g2 g3
    have hgr : IsGreatest {x | ∃ y ∈ a :: t, x = |y|} ((t.map (fun x : ℝ => |x|)).foldl max |a|) := by
      constructor
      · rcases g3 with h | h
        · exact ⟨a, by simp, h⟩
        · obtain ⟨y, hy, e⟩ := List.mem_map.1 h
          exact ⟨y, by simp [hy], e.symm⟩
      · rintro x ⟨y, hy, rfl⟩
        rcases List.mem_cons.1 hy with rfl | hy
        · exact g1
        · exact g2 _ (List.mem_map.2 ⟨y, hy, rfl⟩)
    refine ⟨(t.map (fun x : ℝ => |x|)).foldl max |a| / (a :: t).length, ?_, ?_, ?_⟩
    · unfold penaltyIpoParam
      simp only [List.map_cons, hm]
    · rw [div_mul_cancel₀ _ hn]
      exact hgr
    · rw [div_eq_zero_iff]
      constructor
      · rintro (h | h)
        · intro y hy
          have := hgr.2 ⟨y, hy, rfl⟩
          rw [h] at this
          exact abs_eq_zero.1 (le_antisymm this (abs_nonneg y))
        · exact absurd h hn
      · intro h
        left
        obtain ⟨y, hy, e⟩ := hgr.1
        rw [e, h y hy, abs_zero]

/-- **C69 (violation).** "Parameters below the threshold are not penalised": the threshold has no effect. -/
theorem C69_threshold_violation (ps : List ℝ) (thr thr' : ℝ) : penaltyIpoParam ps thr = penaltyIpoParam ps thr' ∧
    penaltyIpoParam [1 / 1000] (1 / 100 : ℝ) = .ok (1 / 1000) := by
  refine ⟨rfl, ?_⟩
  obtain ⟨p, e, g, _⟩ := C69_param_penalty [1 / 1000] (by simp) (1 / 100)
  rw [e]
  obtain ⟨y, hy, e2⟩ := g.1
  rw [List.mem_singleton] at hy
  subst hy
  rw [abs_of_pos (by norm_num)] at e2
  simp at e2
  rw [e2]
  norm_num

/-- **C69.** Penalties of several panels: without `parameters` every panel gets its in-plane (when balance is requested and not switched off) and
out-of-plane (when requested) penalty. -/
theorem C69_panels (c : Cons) (sw : Bool) (ls : List (Nat → ℝ)) (ca cd : ℝ) :
    penaltyIpoOopoMp c sw false ls ca cd = .ok (ls.map (fun l => if c.ipo = true ∧ sw = true then penaltyIpo l ca else 0),
      ls.map (fun l => penaltyOopo c l cd)) := by
  unfold penaltyIpoOopoMp penaltyIpo penaltyOopo
  rw [if_neg (by simp)]
  congr 3
  funext l
  by_cases h : c.ipo = true ∧ sw = true
  · rw [if_pos h, if_pos (by simp [h.1, h.2])]
  · rw [if_neg h, if_neg (by simpa using h), mul_zero]

/-- **C69 (violation).** "The penalties of several panels can be computed with `parameters`": this always raises `UnboundLocalError`. -/
theorem C69_parameters_violation (c : Cons) (sw : Bool) (ls : List (Nat → ℝ)) (ca cd : ℝ) :
    penaltyIpoOopoMp c sw true ls ca cd = .error .unbound := rfl

/-- The hypotheses of `C69_zero_iff` and `C69_balanced_zero` are met by the default lamina. -/
example : ∃ m, mkMaterial (130 : ℝ) 9 (3 / 10) 4 0 0 (2 / 10000) = .ok m ∧ Physical 130 9 (3 / 10) 4 ∧ m.U2 ≠ 0 ∧ m.U3 ≠ 0 ∧
    Spec.Symmetric [45, 0, -45, 90, 90, -45, 0, 45] ∧ Balanced [45, 0, -45, 90, 90, -45, 0, 45] := by
  obtain ⟨m, hm⟩ := (C68_accepted 130 9 (3 / 10) 4 0 0 (2 / 10000)).2 (by norm_num)
  obtain ⟨_, _, _, _, _, _, _, _, _, _, _, q11, q12, q22, q66, _, u2, u3, _⟩ := mkMaterial_inv hm
  refine ⟨m, hm, by unfold Physical; norm_num, ?_, ?_, by unfold Spec.Symmetric; decide, ?_⟩
  · rw [u2, q11, q22]; norm_num
  · rw [u3, q11, q22, q12, q66]; norm_num
  · intro a h0 h90 _
    by_cases h : a = 45
    · subst h; decide
    by_cases h' : a = -45
    · subst h'; decide
    · rw [List.count_eq_zero.2 (by simp; omega), List.count_eq_zero.2 (by simp; omega)]

end Bella
