import Verif.Model.BucklingSS
import Verif.Spec.PlateEnergy
import Verif.Props.Buckling
import Verif.Props.Material
/-
C89: buckling factors of stacking sequences (src/buckling/buckling.py and src/BELLA/materials.py).
-/
namespace Bella
open Spec

/-- The attributes of a material that buckling.py uses. -/
def Lamina.mat (m : Lamina ℝ) : Mat := ⟨m.U1, m.U2, m.U3, m.U4, m.U5, m.plyT⟩

theorem bucklingSS_iff (cl : List ℤ → List ℝ) (hcl : IsLampam cl) (m : Lamina ℝ) (ss : List ℤ) (hss : ss ≠ []) (nx ny lx ly f : ℝ) (k : Nat) :
    bucklingFactorSS cl ss nx ny lx ly m.mat k = .ok f ↔
      IsMinOverModes f k (fun q p => laminateBuckling m.U1 m.U2 m.U3 m.U4 m.U5 (ss.length * m.plyT) (lampamR ss 8) (lampamR ss 9)
        q p nx ny lx ly) := by
  obtain ⟨h1, h2⟩ := hcl ss hss
  unfold bucklingFactorSS
  rw [C44_minimum_over_modes (cl ss) h1, h2 8 (by norm_num), h2 9 (by norm_num)]
  rfl

theorem plateEnergy_iff {E11 E22 nu12 G12 dv da t : ℝ} {m : Lamina ℝ} (h : mkMaterial E11 E22 nu12 G12 dv da t = .ok m)
    (hE : E22 ≠ 0) (hG : G12 ≠ 0) (ss : List ℤ) (hss : ss ≠ []) (H : ℝ) (e : V3) (W : ℝ) :
    PlateEnergy E11 E22 nu12 G12 ss H e W ↔ W = H ^ 3 * (stiffD m (lampamR ss)).quad e := by
  obtain ⟨p1, _, _, _, pb, _, _, _, _, _, _, q11, q12, q22, q66, u1, u2, u3, u4, u5⟩ := mkMaterial_inv h
  have hw : ∀ a w, PlyEnergy E11 E22 nu12 G12 a e w ↔ w = plyQ m a e := fun a w => by
    rw [plyEnergy_iff p1.ne' hE hG pb, plyQ, q11, q12, q22, q66]
  have key : H ^ 3 * (stiffD m (lampamR ss)).quad e = ∑ i ∈ Finset.range ss.length, plyQ m (ss.getD i 0) e *
      (((H * zUnit ss.length (i + 1)) ^ 3 - (H * zUnit ss.length i) ^ 3) / 3) := by
    rw [(laminate_quad m ⟨u1, u2, u3, u4, u5⟩ ss hss e).2.2, Finset.mul_sum]
    exact Finset.sum_congr rfl fun i _ => by ring
  rw [key]
  constructor
  · rintro ⟨w, hww, rfl⟩
    exact Finset.sum_congr rfl fun i hi => by rw [(hw _ _).1 (hww i (Finset.mem_range.1 hi))]
  · rintro rfl
    exact ⟨fun i => plyQ m (ss.getD i 0) e, fun i _ => (hw _ _).2 rfl, rfl⟩

theorem laminateBuckling_eq (m : Lamina ℝ) (ss : List ℤ) (H nx ny lx ly : ℝ) (q p : ℕ) :
    laminateBuckling m.U1 m.U2 m.U3 m.U4 m.U5 H (lampamR ss 8) (lampamR ss 9) q p nx ny lx ly =
    Real.pi ^ 2 * (H ^ 3 * (stiffD m (lampamR ss)).quad ⟨(q / lx) ^ 2, (p / ly) ^ 2, 0⟩ +
      H ^ 3 * (stiffD m (lampamR ss)).quad ⟨0, 0, 2 * (q / lx) * (p / ly)⟩) / ((q / lx) ^ 2 * |nx| + (p / ly) ^ 2 * |ny|) := by
  simp only [laminateBuckling, plateBuckling, Sym3.quad, Spec.quad, stiffness]
  congr 1
  ring

/-- **C89.** The buckling factor of a stacking sequence is the smallest, over the modes tested, of the ratios of the energy of the
laminate, summed over its plies, to the work of the loads; such ratios exist. -/
theorem C89_energy (cl : List ℤ → List ℝ) (hcl : IsLampam cl) (E11 E22 nu12 G12 dv da t : ℝ) (m : Lamina ℝ)
    (h : mkMaterial E11 E22 nu12 G12 dv da t = .ok m) (hE : E22 ≠ 0) (hG : G12 ≠ 0) (ss : List ℤ) (hss : ss ≠ []) (nx ny lx ly : ℝ)
    (k : Nat) :
    (∃ g, BucklingQuotient E11 E22 nu12 G12 ss (ss.length * t) nx ny lx ly g) ∧
    ∀ g, BucklingQuotient E11 E22 nu12 G12 ss (ss.length * t) nx ny lx ly g →
      ∀ f, bucklingFactorSS cl ss nx ny lx ly m.mat k = .ok f ↔ IsMinOverModes f k g := by
  have ht : m.plyT = t := by
    obtain ⟨_, _, _, _, _, _, _, _, _, _, ht, _⟩ := mkMaterial_inv h
    assumption
  refine ⟨⟨_, fun q p => ⟨_, _, (plateEnergy_iff h hE hG ss hss _ _ _).2 rfl, (plateEnergy_iff h hE hG ss hss _ _ _).2 rfl, rfl⟩⟩,
    fun g hg f => ?_⟩
  rw [bucklingSS_iff cl hcl m ss hss]
  have : (fun q p => laminateBuckling m.U1 m.U2 m.U3 m.U4 m.U5 (ss.length * m.plyT) (lampamR ss 8) (lampamR ss 9) q p nx ny lx ly) = g := by
    funext q p
    obtain ⟨W1, W2, h1, h2, h3⟩ := hg q p
    rw [h3, (plateEnergy_iff h hE hG ss hss _ _ _).1 h1, (plateEnergy_iff h hE hG ss hss _ _ _).1 h2, ← ht]
    exact laminateBuckling_eq m ss _ nx ny lx ly q p
  rw [this]

/-- **C89.** With physically meaningful constants, the buckling factor of every laminate under every load is positive (so the margin is
above -100 %). -/
theorem C89_positive (cl : List ℤ → List ℝ) (hcl : IsLampam cl) (E11 E22 nu12 G12 dv da t : ℝ) (m : Lamina ℝ)
    (h : mkMaterial E11 E22 nu12 G12 dv da t = .ok m) (hp : Physical E11 E22 nu12 G12) (ss : List ℤ) (hss : ss ≠ []) (nx ny lx ly f : ℝ)
    (hload : nx ≠ 0 ∨ ny ≠ 0) (hx : lx ≠ 0) (hy : ly ≠ 0) (k : Nat)
    (hf : bucklingFactorSS cl ss nx ny lx ly m.mat k = .ok f) : 0 < f ∧ -100 < bucklingMargin f := by
  have hf0 : 0 < f := by
    rw [bucklingSS_iff cl hcl m ss hss] at hf
    obtain ⟨⟨q, p, hq, _, hp', _, rfl⟩, _⟩ := hf
    have ht : m.plyT = t := by
      obtain ⟨_, _, _, _, _, _, _, _, _, _, ht, _⟩ := mkMaterial_inv h
      assumption
    have ht0 : 0 < t := ((C68_accepted E11 E22 nu12 G12 dv da t).1 ⟨m, h⟩).2.2.2.1
    have hn : (0 : ℝ) < ss.length := by exact_mod_cast List.length_pos_iff.2 hss
    have hq0 : (0 : ℝ) < q := by exact_mod_cast hq
    have hp0 : (0 : ℝ) < p := by exact_mod_cast hp'
    have a0 : 0 < ((q : ℝ) / lx) ^ 2 := by positivity
    have b0 : 0 < ((p : ℝ) / ly) ^ 2 := by positivity
    have pos : ∀ e : V3, ¬ (e.x = 0 ∧ e.y = 0 ∧ e.g = 0) → 0 < (stiffD m (lampamR ss)).quad e := by
      intro e he
      have := positive_energy E11 E22 nu12 G12 dv da t m h hp ss hss ⟨0, 0, 0⟩ e (by simpa using he)
      simpa [Sym3.quad, Spec.quad, Sym3.bil, Spec.bilin] using this
    show 0 < laminateBuckling m.U1 m.U2 m.U3 m.U4 m.U5 (ss.length * m.plyT) (lampamR ss 8) (lampamR ss 9) q p nx ny lx ly
    rw [laminateBuckling_eq, ht]
    have w1 := pos ⟨(q / lx) ^ 2, (p / ly) ^ 2, 0⟩ (by rintro ⟨h, _⟩; exact a0.ne' h)
    have w2 := pos ⟨0, 0, 2 * (q / lx) * (p / ly)⟩ (by
      rintro ⟨_, _, h⟩
      have : (2 : ℝ) * (q / lx) * (p / ly) ≠ 0 := by
        have := hq0.ne'
        have := hp0.ne'
        positivity
      exact this h)
    have hH : 0 < ((ss.length : ℝ) * t) ^ 3 := by positivity
    have hden : 0 < ((q : ℝ) / lx) ^ 2 * |nx| + (p / ly) ^ 2 * |ny| := by
      rcases hload with hl | hl
      · have := abs_pos.2 hl
        have := abs_nonneg ny
        positivity
      · have := abs_pos.2 hl
        have := abs_nonneg nx
        positivity
    have hpi := Real.pi_pos
    positivity
  refine ⟨hf0, ?_⟩
  unfold bucklingMargin
  linarith

theorem trig_neg (a : ℤ) : trig 0 (-a) = trig 0 a ∧ trig 1 (-a) = trig 1 a := by
  have e : ((-a : ℤ) : ℝ) * Real.pi / 180 = - (a * Real.pi / 180) := by push_cast; ring
  simp only [trig]
  rw [e]
  constructor
  · rw [show (2 : ℝ) * -(a * Real.pi / 180) = -(2 * (a * Real.pi / 180)) by ring, Real.cos_neg]
  · rw [show (4 : ℝ) * -(a * Real.pi / 180) = -(4 * (a * Real.pi / 180)) by ring, Real.cos_neg]

theorem heightR_opposite (n i : Nat) (h : i ≤ n) (hn : 0 < n) : heightR n (n - i) = - heightR n i := by
  unfold heightR
  have hn' : (n : ℝ) ≠ 0 := by exact_mod_cast hn.ne'
  rw [Nat.cast_sub h]
  field_simp
  ring

theorem lampamR_reverse (ss : List ℤ) (k : Nat) (hk : k = 8 ∨ k = 9) : lampamR ss.reverse k = lampamR ss k := by
  have hd : k / 4 + 1 = 3 := by omega
  unfold lampamR
  rw [hd, List.length_reverse]
  congr 1
  rw [← Finset.sum_range_reflect]
  apply Finset.sum_congr rfl
  intro i hi
  have hi := Finset.mem_range.1 hi
  have hn : 0 < ss.length := by omega
  have e1 : ss.length - 1 - i + 1 = ss.length - i := by omega
  have e2 : ss.length - 1 - i = ss.length - (i + 1) := by omega
  have e3 : ss.reverse.getD (ss.length - 1 - i) 0 = ss.getD i 0 := by
    rw [List.getD_eq_getElem?_getD, List.getD_eq_getElem?_getD, List.getElem?_reverse (by omega)]
    congr 2
    omega
  rw [e3, e1, e2, heightR_opposite _ _ (by omega) hn, heightR_opposite _ _ (by omega) hn]
  ring

theorem lampamR_neg (ss : List ℤ) (k : Nat) (hk : k = 8 ∨ k = 9) : lampamR (ss.map (fun a => -a)) k = lampamR ss k := by
  unfold lampamR
  rw [List.length_map]
  congr 1
  apply Finset.sum_congr rfl
  intro i hi
  have hi := Finset.mem_range.1 hi
  have e : (ss.map (fun a => -a)).getD i 0 = - ss.getD i 0 := by
    simp [List.getD_eq_getElem?_getD, List.getElem?_eq_getElem hi]
  rw [e]
  rcases hk with rfl | rfl
  · rw [show 8 % 4 = 0 from rfl, (trig_neg _).1]
  · rw [show 9 % 4 = 1 from rfl, (trig_neg _).2]

/-- **C89.** The buckling factor does not change when the plies are taken in the opposite order, nor when the signs of all the angles
are changed. -/
theorem C89_mirror (cl : List ℤ → List ℝ) (hcl : IsLampam cl) (m : Lamina ℝ) (ss : List ℤ) (hss : ss ≠ []) (nx ny lx ly : ℝ) (k : Nat) :
    bucklingFactorSS cl ss.reverse nx ny lx ly m.mat k = bucklingFactorSS cl ss nx ny lx ly m.mat k ∧
    bucklingFactorSS cl (ss.map (fun a => -a)) nx ny lx ly m.mat k = bucklingFactorSS cl ss nx ny lx ly m.mat k := by
  have eq : ∀ tt : List ℤ, tt ≠ [] → tt.length = ss.length → lampamR tt 8 = lampamR ss 8 → lampamR tt 9 = lampamR ss 9 →
      bucklingFactorSS cl tt nx ny lx ly m.mat k = bucklingFactorSS cl ss nx ny lx ly m.mat k := by
    intro tt htt hl h8 h9
    unfold bucklingFactorSS bucklingFactor bucklingStiff
    rw [if_pos (hcl tt htt).1, if_pos (hcl ss hss).1, (hcl tt htt).2 8 (by norm_num), (hcl tt htt).2 9 (by norm_num),
      (hcl ss hss).2 8 (by norm_num), (hcl ss hss).2 9 (by norm_num), hl, h8, h9]
  exact ⟨eq _ (by simpa using hss) (by simp) (lampamR_reverse ss 8 (by norm_num)) (lampamR_reverse ss 9 (by norm_num)),
    eq _ (by simpa using hss) (by simp) (lampamR_neg ss 8 (by norm_num)) (lampamR_neg ss 9 (by norm_num))⟩

/-- C89: with at least one mode the factor exists. -/
theorem C89_defined (cl : List ℤ → List ℝ) (hcl : IsLampam cl) (m : Lamina ℝ) (ss : List ℤ) (hss : ss ≠ []) (nx ny lx ly : ℝ) (k : Nat)
    (hk : 1 ≤ k) : ∃ f, bucklingFactorSS cl ss nx ny lx ly m.mat k = .ok f :=
  C44_defined (cl ss) (Or.inl (hcl ss hss).1) m.mat _ nx ny lx ly k hk

/-- A concrete case: an asymmetric laminate of carbon-epoxy plies under compression, ten modes. -/
theorem C89_example : ∃ (cl : List ℤ → List ℝ) (m : Lamina ℝ) (f : ℝ), IsLampam cl ∧
    mkMaterial (130 : ℝ) 9 (3 / 10) 4 0 0 (2 / 10000) = .ok m ∧
    bucklingFactorSS cl [45, -45, 0, 90, 30] (-10) 0 (1 / 2) (3 / 10) m.mat 10 = .ok f ∧ 0 < f ∧
    bucklingFactorSS cl [30, 90, 0, -45, 45] (-10) 0 (1 / 2) (3 / 10) m.mat 10 = .ok f := by
  have hcl : IsLampam (fun ss => (List.range 12).map (fun k => lampamR ss k)) := by
    intro ss _
    refine ⟨by simp, fun k hk => ?_⟩
    simp [List.getD_eq_getElem?_getD, List.getElem?_range hk]
  obtain ⟨m, hm⟩ := (C68_accepted 130 9 (3 / 10) 4 0 0 (2 / 10000)).2 (by norm_num)
  obtain ⟨f, hf⟩ := C89_defined _ hcl m [45, -45, 0, 90, 30] (by simp) (-10) 0 (1 / 2) (3 / 10) 10 (by norm_num)
  refine ⟨_, m, f, hcl, hm, hf, (C89_positive _ hcl _ _ _ _ _ _ _ m hm (by unfold Physical; norm_num) _ (by simp) _ _ _ _ f
    (Or.inl (by norm_num)) (by norm_num) (by norm_num) 10 hf).1, ?_⟩
  have := (C89_mirror _ hcl m [45, -45, 0, 90, 30] (by simp) (-10) 0 (1 / 2) (3 / 10) 10).1
  rw [hf] at this
  exact this

end Bella
