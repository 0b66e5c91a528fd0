import Verif.Proofs.Common
import Verif.Proofs.Monad
import Verif.Model.Buckling
import Verif.Spec.Buckling
/-
Property C44: buckling factors.
-/
namespace Bella

theorem foldl_min_spec (l : List ℝ) (x : ℝ) :
    (l.foldl min x ∈ x :: l) ∧ ∀ y ∈ x :: l, l.foldl min x ≤ y := by
  induction l generalizing x with
  | nil => simp
  | cons a l ih =>
    obtain ⟨h1, h2⟩ := ih (min x a)
    rw [List.foldl_cons]
    refine ⟨?_, fun y hy => ?_⟩
    · rcases List.mem_cons.1 h1 with h | h
      · rw [h]
        rcases min_choice x a with e | e <;> rw [e] <;> simp
      · simp [h]
    · have h3 := h2 (min x a) (by simp)
      rcases List.mem_cons.1 hy with h | h
      · rw [h]; exact le_trans h3 (min_le_left _ _)
      · rcases List.mem_cons.1 h with h | h
        · rw [h]; exact le_trans h3 (min_le_right _ _)
        · exact h2 y (by simp [h])

theorem npMinR_spec (l : List ℝ) (f : ℝ) : npMinR l = .ok f ↔ f ∈ l ∧ ∀ y ∈ l, f ≤ y := by
  cases l with
  | nil => simp [npMinR]
  | cons x l =>
    simp only [npMinR, Except.ok.injEq]
    obtain ⟨h1, h2⟩ := foldl_min_spec l x
    constructor
    · rintro rfl; exact ⟨h1, h2⟩
    · rintro ⟨h3, h4⟩
      exact le_antisymm (h2 f h3) (h4 _ h1)

theorem mem_bucklingTable (d : Stiff) (k : Nat) (nx ny lx ly f : ℝ) :
    f ∈ bucklingTable d k nx ny lx ly ↔
      ∃ m n, 1 ≤ m ∧ m ≤ k ∧ 1 ≤ n ∧ n ≤ k ∧ f = bucklingMN d m n nx ny lx ly := by
  simp only [bucklingTable, List.mem_flatMap, List.mem_range, List.mem_map]
  constructor
  · rintro ⟨m, hm, n, hn, rfl⟩
    exact ⟨m + 1, n + 1, by omega, by omega, by omega, by omega, rfl⟩
  · rintro ⟨m, n, h1, h2, h3, h4, rfl⟩
    refine ⟨m - 1, by omega, n - 1, by omega, ?_⟩
    rw [Nat.sub_add_cancel h1, Nat.sub_add_cancel h3]

theorem npMin_table (d : Stiff) (k : Nat) (nx ny lx ly f : ℝ) :
    npMinR (bucklingTable d k nx ny lx ly) = .ok f ↔
      Spec.IsMinOverModes f k (fun m n => bucklingMN d m n nx ny lx ly) := by
  rw [npMinR_spec, mem_bucklingTable]
  refine and_congr Iff.rfl ⟨fun h m n h1 h2 h3 h4 => ?_, fun h y hy => ?_⟩
  · exact h _ ((mem_bucklingTable _ _ _ _ _ _ _).2 ⟨m, n, h1, h2, h3, h4, rfl⟩)
  · obtain ⟨m, n, h1, h2, h3, h4, rfl⟩ := (mem_bucklingTable _ _ _ _ _ _ _).1 hy
    exact h m n h1 h2 h3 h4

theorem bucklingMN_eq (d : Stiff) (m n : Nat) (nx ny lx ly : ℝ) :
    bucklingMN d m n nx ny lx ly = Spec.plateBuckling d.D11 d.D12 d.D22 d.D66 m n nx ny lx ly := by
  simp only [bucklingMN, Spec.plateBuckling]
  ring_nf

/-- C44: in the 12-component format, the buckling factor is the smallest, over the tested modes, of
the classical buckling factors of the laminate, and nothing else. -/
theorem C44_minimum_over_modes (lampam : List ℝ) (hl : lampam.length = 12) (mat : Mat)
    (n nx ny lx ly f : ℝ) (k : Nat) :
    bucklingFactor lampam mat n nx ny lx ly k = .ok f ↔
      Spec.IsMinOverModes f k (fun m p => Spec.laminateBuckling mat.U1 mat.U2 mat.U3 mat.U4 mat.U5
        (n * mat.plyT) (lampam.getD 8 0) (lampam.getD 9 0) m p nx ny lx ly) := by
  have hd : bucklingFactor lampam mat n nx ny lx ly k = npMinR (bucklingTable
      ⟨(1 / 12) * (n * mat.plyT) ^ 3 * (mat.U1 + mat.U2 * lampam.getD 8 0 + mat.U3 * lampam.getD 9 0),
       (1 / 12) * (n * mat.plyT) ^ 3 * (-mat.U3 * lampam.getD 9 0 + mat.U4),
       (1 / 12) * (n * mat.plyT) ^ 3 * (mat.U1 - mat.U2 * lampam.getD 8 0 + mat.U3 * lampam.getD 9 0),
       (1 / 12) * (n * mat.plyT) ^ 3 * (-mat.U3 * lampam.getD 9 0 + mat.U5)⟩ k nx ny lx ly) := by
    unfold bucklingFactor bucklingStiff
    rw [if_pos hl]
    rfl
  rw [hd, npMin_table]
  have e : (fun m p => bucklingMN ⟨(1 / 12) * (n * mat.plyT) ^ 3 *
        (mat.U1 + mat.U2 * lampam.getD 8 0 + mat.U3 * lampam.getD 9 0),
       (1 / 12) * (n * mat.plyT) ^ 3 * (-mat.U3 * lampam.getD 9 0 + mat.U4),
       (1 / 12) * (n * mat.plyT) ^ 3 * (mat.U1 - mat.U2 * lampam.getD 8 0 + mat.U3 * lampam.getD 9 0),
       (1 / 12) * (n * mat.plyT) ^ 3 * (-mat.U3 * lampam.getD 9 0 + mat.U5)⟩ m p nx ny lx ly) =
      (fun m p => Spec.laminateBuckling mat.U1 mat.U2 mat.U3 mat.U4 mat.U5
        (n * mat.plyT) (lampam.getD 8 0) (lampam.getD 9 0) m p nx ny lx ly) := by
    funext m p
    rw [bucklingMN_eq, Spec.laminateBuckling]
    dsimp only
    congr 1 <;> ring
  rw [e]

/-- C44: with at least one mode the factor exists. -/
theorem C44_defined (lampam : List ℝ) (hl : lampam.length = 12 ∨ lampam.length = 4) (mat : Mat)
    (n nx ny lx ly : ℝ) (k : Nat) (hk : 1 ≤ k) :
    ∃ f, bucklingFactor lampam mat n nx ny lx ly k = .ok f := by
  have hne : ∀ d, ∃ f, npMinR (bucklingTable d k nx ny lx ly) = .ok f := by
    intro d
    cases h : bucklingTable d k nx ny lx ly with
    | nil =>
      have := (mem_bucklingTable d k nx ny lx ly _).2 ⟨1, 1, le_refl _, hk, le_refl _, hk, rfl⟩
      rw [h] at this
      simp at this
    | cons x l => exact ⟨_, rfl⟩
  unfold bucklingFactor bucklingStiff
  rcases hl with h | h
  · rw [if_pos h]; exact hne _
  · rw [if_neg (by omega), if_neg (by omega)]; exact hne _

theorem IsMin_scale {f c : ℝ} {k : ℕ} {g g' : ℕ → ℕ → ℝ} (hc : 0 ≤ c)
    (h : Spec.IsMinOverModes f k g) (hg : ∀ m n, g' m n = c * g m n) :
    Spec.IsMinOverModes (c * f) k g' := by
  obtain ⟨⟨m, n, h1, h2, h3, h4, h5⟩, h6⟩ := h
  refine ⟨⟨m, n, h1, h2, h3, h4, by rw [hg, h5]⟩, fun m n h1 h2 h3 h4 => ?_⟩
  rw [hg]
  exact mul_le_mul_of_nonneg_left (h6 m n h1 h2 h3 h4) hc

/-- The factor is determined by the stiffnesses. -/
theorem bucklingFactor_ok (lampam : List ℝ) (mat : Mat) (n nx ny lx ly f : ℝ) (k : Nat) :
    bucklingFactor lampam mat n nx ny lx ly k = .ok f ↔
    ∃ d, bucklingStiff lampam mat n = .ok d ∧
      Spec.IsMinOverModes f k (fun m n => bucklingMN d m n nx ny lx ly) := by
  simp only [← npMin_table]
  unfold bucklingFactor
  rw [bind_ok]

/-- C44: multiplying the loads by `t > 0` divides the buckling factor by `t`
(any format of the lamination parameters). -/
theorem C44_inverse_in_load (lampam : List ℝ) (mat : Mat) (n nx ny lx ly f t : ℝ) (k : Nat)
    (ht : 0 < t) (h : bucklingFactor lampam mat n nx ny lx ly k = .ok f) :
    bucklingFactor lampam mat n (t * nx) (t * ny) lx ly k = .ok (f / t) := by
  obtain ⟨d, h1, h2⟩ := (bucklingFactor_ok _ _ _ _ _ _ _ _ _).1 h
  rw [bucklingFactor_ok]
  refine ⟨d, h1, ?_⟩
  have : f / t = t⁻¹ * f := by rw [div_eq_mul_inv, mul_comm]
  rw [this]
  refine IsMin_scale (by positivity) h2 (fun m p => ?_)
  simp only [bucklingMN, abs_mul, abs_of_pos ht]
  have e : ((m : ℝ) / lx) ^ 2 * (t * |nx|) + ((p : ℝ) / ly) ^ 2 * (t * |ny|) =
    t * (((m : ℝ) / lx) ^ 2 * |nx| + ((p : ℝ) / ly) ^ 2 * |ny|) := by ring
  rw [e, div_mul_eq_div_div, div_right_comm, div_eq_inv_mul]

/-- C44: only the intensities of the loads count, not their signs. -/
theorem C44_load_sign (lampam : List ℝ) (mat : Mat) (n nx ny nx' ny' lx ly : ℝ) (k : Nat)
    (hx : |nx| = |nx'|) (hy : |ny| = |ny'|) :
    bucklingFactor lampam mat n nx ny lx ly k = bucklingFactor lampam mat n nx' ny' lx ly k := by
  have e : ∀ d m p, bucklingMN d m p nx ny lx ly = bucklingMN d m p nx' ny' lx ly := by
    intro d m p
    simp only [bucklingMN, hx, hy]
  simp only [bucklingFactor, bucklingTable, e]

/-- C44: making the laminate `s > 0` times thicker multiplies the factor by `s ^ 3`. -/
theorem C44_cube_of_thickness (lampam : List ℝ) (mat : Mat) (n nx ny lx ly f s : ℝ) (k : Nat)
    (hs : 0 < s) (h : bucklingFactor lampam mat n nx ny lx ly k = .ok f) :
    bucklingFactor lampam mat (s * n) nx ny lx ly k = .ok (s ^ 3 * f) := by
  obtain ⟨d, h1, h2⟩ := (bucklingFactor_ok _ _ _ _ _ _ _ _ _).1 h
  rw [bucklingFactor_ok]
  refine ⟨⟨s ^ 3 * d.D11, s ^ 3 * d.D12, s ^ 3 * d.D22, s ^ 3 * d.D66⟩, ?_, ?_⟩
  · unfold bucklingStiff at h1 ⊢
    split
    · rename_i hl
      simp only [if_pos hl, Except.ok.injEq] at h1
      subst h1
      simp only [Except.ok.injEq, Stiff.mk.injEq]
      refine ⟨?_, ?_, ?_, ?_⟩ <;> ring
    · rename_i hl
      simp only [if_neg hl] at h1
      split
      · rename_i hl2; simp [hl2] at h1
      · rename_i hl2
        simp only [if_neg hl2, Except.ok.injEq] at h1
        subst h1
        simp only [Except.ok.injEq, Stiff.mk.injEq]
        refine ⟨?_, ?_, ?_, ?_⟩ <;> ring
  · refine IsMin_scale (by positivity) h2 (fun m p => ?_)
    simp only [bucklingMN]
    ring

/-- C44: testing more modes never increases the factor. -/
theorem C44_more_modes (lampam : List ℝ) (mat : Mat) (n nx ny lx ly f f' : ℝ) (k k' : Nat)
    (hk : k ≤ k') (h : bucklingFactor lampam mat n nx ny lx ly k = .ok f)
    (h' : bucklingFactor lampam mat n nx ny lx ly k' = .ok f') : f' ≤ f := by
  obtain ⟨d, h1, ⟨m, p, a1, a2, a3, a4, rfl⟩, _⟩ := (bucklingFactor_ok _ _ _ _ _ _ _ _ _).1 h
  obtain ⟨d', h1', _, h3⟩ := (bucklingFactor_ok _ _ _ _ _ _ _ _ _).1 h'
  rw [h1] at h1'
  cases h1'
  exact h3 m p a1 (by omega) a3 (by omega)

theorem bucklingMN_lt (d d' : Stiff) (m p : Nat) (nx ny lx ly : ℝ) (hm : 1 ≤ m) (hp : 1 ≤ p)
    (hlx : 0 < lx) (hly : 0 < ly) (hload : nx ≠ 0 ∨ ny ≠ 0)
    (e1 : d.D11 = d'.D11) (e2 : d.D12 = d'.D12) (e3 : d.D22 = d'.D22) (h : d.D66 < d'.D66) :
    bucklingMN d m p nx ny lx ly < bucklingMN d' m p nx ny lx ly := by
  simp only [bucklingMN, e1, e2, e3]
  have hm' : (0 : ℝ) < m := by exact_mod_cast hm
  have hp' : (0 : ℝ) < p := by exact_mod_cast hp
  have ha : 0 < ((m : ℝ) / lx) ^ 2 := by positivity
  have hb : 0 < ((p : ℝ) / ly) ^ 2 := by positivity
  generalize ((m : ℝ) / lx) ^ 2 = al at ha ⊢
  generalize ((p : ℝ) / ly) ^ 2 = be at hb ⊢
  have hden : 0 < al * |nx| + be * |ny| := by
    rcases hload with hx | hx
    · have := abs_pos.2 hx; positivity
    · have := abs_pos.2 hx; positivity
  apply div_lt_div_of_pos_right _ hden
  apply mul_lt_mul_of_pos_left _ (by have := Real.pi_pos; positivity)
  have : d.D66 * (al * be) < d'.D66 * (al * be) := mul_lt_mul_of_pos_right h (by positivity)
  nlinarith

theorem IsMin_lt {f f' : ℝ} {k : ℕ} {g g' : ℕ → ℕ → ℝ} (h : Spec.IsMinOverModes f k g)
    (h' : Spec.IsMinOverModes f' k g')
    (hlt : ∀ m n, 1 ≤ m → 1 ≤ n → g m n < g' m n) : f < f' := by
  obtain ⟨⟨m, n, h1, h2, h3, h4, h5⟩, _⟩ := h'
  rw [h5]
  exact lt_of_le_of_lt (h.2 m n h1 h2 h3 h4) (hlt m n h1 h3)

/-- C44, violation: the buckling factor computed from the four out-of-plane lamination parameters
is the one computed from the twelve parameters exactly when `U3 * (x9 - x10) = 0`, that is almost
never (the 4-component branch uses the first parameter instead of the second one for `D66`). -/
theorem C44_formats_violation (x y : ℝ) (l12 l4 : List ℝ) (mat : Mat) (n nx ny lx ly f12 f4 : ℝ)
    (k : Nat) (h12 : l12.length = 12) (h4 : l4.length = 4)
    (x12 : l12.getD 8 0 = x) (y12 : l12.getD 9 0 = y) (x4 : l4.getD 0 0 = x) (y4 : l4.getD 1 0 = y)
    (hn : 0 < n * mat.plyT) (hlx : 0 < lx) (hly : 0 < ly) (hload : nx ≠ 0 ∨ ny ≠ 0)
    (hf12 : bucklingFactor l12 mat n nx ny lx ly k = .ok f12)
    (hf4 : bucklingFactor l4 mat n nx ny lx ly k = .ok f4) :
    f4 = f12 ↔ mat.U3 * (x - y) = 0 := by
  obtain ⟨d, h1, h2⟩ := (bucklingFactor_ok _ _ _ _ _ _ _ _ _).1 hf12
  obtain ⟨d', h1', h2'⟩ := (bucklingFactor_ok _ _ _ _ _ _ _ _ _).1 hf4
  unfold bucklingStiff at h1 h1'
  rw [if_pos h12] at h1
  rw [if_neg (by omega), if_neg (by omega)] at h1'
  simp only [x12, y12, x4, y4, Except.ok.injEq] at h1 h1'
  have e1 : d'.D11 = d.D11 := by rw [← h1, ← h1']
  have e2 : d'.D12 = d.D12 := by rw [← h1, ← h1']
  have e3 : d'.D22 = d.D22 := by rw [← h1, ← h1']
  have e4 : d.D66 - d'.D66 = 1 / 12 * (n * mat.plyT) ^ 3 * (mat.U3 * (x - y)) := by
    rw [← h1, ← h1']; ring
  have hpos : 0 < 1 / 12 * (n * mat.plyT) ^ 3 := by positivity
  rcases lt_trichotomy (mat.U3 * (x - y)) 0 with h | h | h
  · have hd : d.D66 < d'.D66 := by nlinarith
    have := IsMin_lt h2 h2' (fun m p hm hp =>
      bucklingMN_lt d d' m p nx ny lx ly hm hp hlx hly hload e1.symm e2.symm e3.symm hd)
    constructor
    · intro e; linarith
    · intro e; linarith
  · have hd : d'.D66 = d.D66 := by rw [h, mul_zero] at e4; linarith
    have : d' = d := by cases d; cases d'; simp_all
    subst this
    refine ⟨fun _ => h, fun _ => ?_⟩
    exact Except.ok.inj (((npMin_table _ _ _ _ _ _ _).2 h2').symm.trans
      ((npMin_table _ _ _ _ _ _ _).2 h2))
  · have hd : d'.D66 < d.D66 := by nlinarith
    have := IsMin_lt h2' h2 (fun m p hm hp =>
      bucklingMN_lt d' d m p nx ny lx ly hm hp hlx hly hload e1 e2 e3 hd)
    constructor
    · intro e; linarith
    · intro e; linarith

/-- The hypotheses of the violation are met: with `U3 = 1`, `x9 = 1/2`, `x10 = 0`. -/
example : ∃ f12 f4 : ℝ,
    bucklingFactor [0, 0, 0, 0, 0, 0, 0, 0, 1 / 2, 0, 0, 0] ⟨2, 1, 1, 1, 1, 1⟩ 4 1 0 1 1 3 = .ok f12 ∧
    bucklingFactor [1 / 2, 0, 0, 0] ⟨2, 1, 1, 1, 1, 1⟩ 4 1 0 1 1 3 = .ok f4 ∧ f4 ≠ f12 := by
  obtain ⟨f12, h12⟩ := C44_defined [0, 0, 0, 0, 0, 0, 0, 0, 1 / 2, 0, 0, 0] (Or.inl rfl)
    ⟨2, 1, 1, 1, 1, 1⟩ 4 1 0 1 1 3 (by norm_num)
  obtain ⟨f4, h4⟩ := C44_defined [1 / 2, 0, 0, 0] (Or.inr rfl)
    ⟨2, 1, 1, 1, 1, 1⟩ 4 1 0 1 1 3 (by norm_num)
  refine ⟨f12, f4, h12, h4, ?_⟩
  intro e
  have := (C44_formats_violation (1 / 2) 0 _ _ _ _ _ _ _ _ f12 f4 _ rfl rfl rfl rfl rfl rfl
    (by norm_num) (by norm_num) (by norm_num) (Or.inl (by norm_num)) h12 h4).1 e
  norm_num at this

end Bella
