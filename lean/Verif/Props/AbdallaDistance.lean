import Verif.Model.AbdallaDistance
import Verif.Model.Guidelines
import Verif.Spec.Abdalla
import Verif.Props.Constraints
import Mathlib.Tactic.Linarith
import Mathlib.Tactic.Ring
import Mathlib.Tactic.FieldSimp
import Mathlib.Tactic.Positivity
/-
C67: the 10% rule on lamination parameters (Abdalla): check and distance.
-/
namespace Bella

open Spec

theorem abdallaRegion_iff (p x y : ℝ) (hq : 0 < 1 - 4 * p) :
    AbdallaRegion p x y ↔ 0 ≤ (1 - 4 * p) ^ 2 + (1 - 4 * p) * y - 2 * x ^ 2 ∧ y ≤ 1 - 4 * p := by
  constructor
  · rintro ⟨x', y', ⟨h1, h2⟩, rfl, rfl⟩
    constructor
    · have : (1 - 4 * p) ^ 2 + (1 - 4 * p) * ((1 - 4 * p) * y') - 2 * ((1 - 4 * p) * x') ^ 2 =
          (1 - 4 * p) ^ 2 * (y' - (2 * x' ^ 2 - 1)) := by ring
      rw [this]
      exact mul_nonneg (sq_nonneg _) (by linarith)
    · nlinarith
  · rintro ⟨h1, h2⟩
    refine ⟨x / (1 - 4 * p), y / (1 - 4 * p), ⟨?_, ?_⟩, ?_, ?_⟩
    · have e : y / (1 - 4 * p) - (2 * (x / (1 - 4 * p)) ^ 2 - 1) =
          ((1 - 4 * p) ^ 2 + (1 - 4 * p) * y - 2 * x ^ 2) / (1 - 4 * p) ^ 2 := by
        field_simp
        ring
      have : 0 ≤ ((1 - 4 * p) ^ 2 + (1 - 4 * p) * y - 2 * x ^ 2) / (1 - 4 * p) ^ 2 := div_nonneg h1 (sq_nonneg _)
      linarith
    · rw [div_le_one hq]; exact h2
    · field_simp
    · field_simp

/-- The share of the rule of a constraint object is at least 0 and less than a quarter. -/
theorem pAbdalla_bounds {a : ConsArgs} {c : Cons} (hc : mkConstraints a = .ok c) :
    0 ≤ ((c.pAbdalla : ℚ) : ℝ) ∧ 0 < 1 - 4 * ((c.pAbdalla : ℚ) : ℝ) := by
  obtain ⟨_, _, _, _, _, ⟨h1, h2⟩, _⟩ := C14_percentages a c hc
  constructor
  · exact_mod_cast h1
  · have h2 : ((c.pAbdalla : ℚ) : ℝ) < ((1 / 4 : ℚ) : ℝ) := by exact_mod_cast h2
    push_cast at h2
    linarith

theorem isTenPercentLPs_iff (c : Cons) (x y : ℝ) : isTenPercentLPs c x y = true ↔
    0 ≤ (1 - 4 * ((c.pAbdalla : ℚ) : ℝ)) ^ 2 + (1 - 4 * ((c.pAbdalla : ℚ) : ℝ)) * y - 2 * x ^ 2 + 1 / 10 ^ 15 ∧
    y ≤ 1 - 4 * ((c.pAbdalla : ℚ) : ℝ) + 1 / 10 ^ 15 := by
  unfold isTenPercentLPs
  simp only []
  constructor
  · intro h
    by_cases h1 : (1 - 4 * ((c.pAbdalla : ℚ) : ℝ)) ^ 2 + (1 - 4 * ((c.pAbdalla : ℚ) : ℝ)) * y - 2 * x ^ 2 + 1 / 10 ^ 15 < 0
    · rw [if_pos h1] at h; cases h
    · rw [if_neg h1] at h
      by_cases h2 : 1 - 4 * ((c.pAbdalla : ℚ) : ℝ) - y + 1 / 10 ^ 15 < 0
      · rw [if_pos h2] at h; cases h
      · exact ⟨not_lt.1 h1, by linarith [not_lt.1 h2]⟩
  · rintro ⟨h1, h2⟩
    rw [if_neg (not_lt.2 h1), if_neg (not_lt.2 (by linarith))]

/-- **C67.** The check on lamination parameters accepts every point of the region of the rule, and a point it accepts is, reduced by the
factor `q² / (q² + 1e-15)` with `q = 1 - 4 p` (`p` the share asked for), in the region. -/
theorem C67_check (a : ConsArgs) (c : Cons) (hc : mkConstraints a = .ok c) (x y : ℝ) :
    (AbdallaRegion (c.pAbdalla : ℚ) x y → isTenPercentLPs c x y = true) ∧
    (isTenPercentLPs c x y = true → ∀ q l : ℝ, q = 1 - 4 * ((c.pAbdalla : ℚ) : ℝ) → l = q ^ 2 / (q ^ 2 + 1 / 10 ^ 15) →
      AbdallaRegion (c.pAbdalla : ℚ) (l * x) (l * y)) := by
  obtain ⟨hp, hq⟩ := pAbdalla_bounds hc
  rw [isTenPercentLPs_iff]
  constructor
  · intro h
    obtain ⟨h1, h2⟩ := (abdallaRegion_iff _ _ _ hq).1 h
    have : (0 : ℝ) < 1 / 10 ^ 15 := by positivity
    exact ⟨by linarith, by linarith⟩
  · rintro ⟨h1, h2⟩ q l eq el
    rw [abdallaRegion_iff _ _ _ hq]
    rw [← eq] at h1 h2 hq ⊢
    have hq1 : q ≤ 1 := by rw [eq]; linarith
    have t0 : (0 : ℝ) < 1 / 10 ^ 15 := by positivity
    generalize (1 : ℝ) / 10 ^ 15 = t at *
    have hd : 0 < q ^ 2 + t := by positivity
    have l0 : 0 < l := by rw [el]; positivity
    have l1 : l ≤ 1 := by rw [el, div_le_one hd]; linarith
    have e : l * (q ^ 2 + t) = q ^ 2 := by rw [el]; field_simp
    constructor
    · have g1 : l * (q ^ 2 + q * y - 2 * x ^ 2 + t) ≥ 0 := mul_nonneg l0.le h1
      have g2 : 0 ≤ x ^ 2 * (l * (1 - l)) := mul_nonneg (sq_nonneg _) (mul_nonneg l0.le (by linarith))
      nlinarith
    · have g1 : l * y ≤ l * (q + t) := mul_le_mul_of_nonneg_left h2 l0.le
      have g2 : l * (q + t) ≤ q := by
        have : q * (l * (q ^ 2 + t)) = q * q ^ 2 := by rw [e]
        have k : l * (q + t) * q ≤ q * q := by
          have : l * (q + t) * q = l * (q ^ 2 + t) - l * t * (1 - q) := by ring
          have h5 : 0 ≤ l * t * (1 - q) := mul_nonneg (mul_nonneg l0.le t0.le) (by linarith)
          rw [e] at this
          nlinarith
        exact le_of_mul_le_mul_right k hq
      linarith

/-- The rational and the real version of the check agree. -/
theorem isTenPercentLPs_rat (c : Cons) (x y : ℚ) : isTenPercentLPs c x y = isTenPercentAbdalla c x y := by
  rw [Bool.eq_iff_iff, isTenPercentLPs_iff]
  unfold isTenPercentAbdalla tol15
  have e1 : (0 : ℝ) ≤ (1 - 4 * ((c.pAbdalla : ℚ) : ℝ)) ^ 2 + (1 - 4 * ((c.pAbdalla : ℚ) : ℝ)) * (y : ℝ) - 2 * (x : ℝ) ^ 2 + 1 / 10 ^ 15 ↔
      (0 : ℚ) ≤ (1 - 4 * c.pAbdalla) ^ 2 + (1 - 4 * c.pAbdalla) * y - 2 * x ^ 2 + 1 / 10 ^ 15 := by
    rw [← Rat.cast_le (K := ℝ)]
    push_cast
    rfl
  have e2 : (y : ℝ) ≤ 1 - 4 * ((c.pAbdalla : ℚ) : ℝ) + 1 / 10 ^ 15 ↔ y ≤ 1 - 4 * c.pAbdalla + 1 / 10 ^ 15 := by
    rw [← Rat.cast_le (K := ℝ)]
    push_cast
    rfl
  rw [e1, e2]
  constructor
  · rintro ⟨h1, h2⟩
    rw [if_neg (not_lt.2 h1), if_neg (not_lt.2 (by linarith))]
  · intro h
    by_cases h1 : (1 - 4 * c.pAbdalla) ^ 2 + (1 - 4 * c.pAbdalla) * y - 2 * x ^ 2 + 1 / 10 ^ 15 < 0
    · rw [if_pos h1] at h; cases h
    · rw [if_neg h1] at h
      by_cases h2 : 1 - 4 * c.pAbdalla - y + 1 / 10 ^ 15 < 0
      · rw [if_pos h2] at h; cases h
      · exact ⟨not_lt.1 h1, by linarith [not_lt.1 h2]⟩

/-! ### Ply shares imply the rule -/

theorem trig_zero_zero : trig 0 0 = 1 := by simp [trig]

theorem trig_zero_90 : trig 0 90 = -1 := by
  simp only [trig]
  rw [show (2 * (((90 : ℤ) : ℝ) * Real.pi / 180)) = Real.pi by push_cast; ring, Real.cos_pi]

theorem trig_zero_45 : trig 0 45 = 0 := by
  simp only [trig]
  rw [show (2 * (((45 : ℤ) : ℝ) * Real.pi / 180)) = Real.pi / 2 by push_cast; ring, Real.cos_pi_div_two]

theorem trig_zero_m45 : trig 0 (-45) = 0 := by
  simp only [trig]
  rw [show (2 * (((-45 : ℤ) : ℝ) * Real.pi / 180)) = -(Real.pi / 2) by push_cast; ring, Real.cos_neg, Real.cos_pi_div_two]

theorem trig_one (a : ℤ) : trig 1 a = 2 * trig 0 a ^ 2 - 1 := by
  simp only [trig]
  rw [← Real.cos_two_mul]
  congr 1
  ring

theorem trig_one_le (a : ℤ) : trig 1 a ≤ 1 := by simp only [trig]; exact Real.cos_le_one _

theorem lampamR_inplane (ss : List ℤ) (k : ℕ) (hk : k < 4) : lampamR ss k = (ss.map (trig k)).sum / ss.length := by
  have e0 : k / 4 = 0 := by omega
  have e1 : k % 4 = k := by omega
  unfold lampamR
  rw [e0, e1]
  rcases Nat.eq_zero_or_pos ss.length with h0 | hpos
  · rw [h0]; simp
  have hn : (ss.length : ℝ) ≠ 0 := by exact_mod_cast hpos.ne'
  have : ∀ i ∈ Finset.range ss.length, trig k (ss.getD i 0) *
      (heightR ss.length (i + 1) ^ (0 + 1) - heightR ss.length i ^ (0 + 1)) = trig k (ss.getD i 0) * (2 / ss.length) := by
    intro i _
    unfold heightR
    push_cast
    ring
  rw [Finset.sum_congr rfl this, ← Finset.sum_mul]
  have e : ∑ i ∈ Finset.range ss.length, trig k (ss.getD i 0) = (ss.map (trig k)).sum := by
    clear this hn hpos
    induction ss with
    | nil => simp
    | cons b l ih =>
      rw [List.length_cons, Finset.sum_range_succ']
      simp only [List.getD_cons_succ, List.getD_cons_zero, List.map_cons, List.sum_cons]
      rw [ih]; ring
  rw [e]
  field_simp

theorem shares_split (ss : List ℤ) : ∃ C S N : ℝ, 0 ≤ S ∧ S ≤ N ∧ C ^ 2 ≤ N * S ∧
    (ss.map (trig 0)).sum = ss.count 0 - ss.count 90 + C ∧
    (ss.map (trig 1)).sum = 2 * (ss.count 0 + ss.count 90 + S) - ss.length ∧
    (ss.length : ℝ) = ss.count 0 + ss.count 90 + (ss.count 45 + ss.count (-45)) + N := by
  induction ss with
  | nil => exact ⟨0, 0, 0, by simp⟩
  | cons b l ih =>
    obtain ⟨C, S, N, hS, hSN, hC, e1, e2, e3⟩ := ih
    have hN : 0 ≤ N := hS.trans hSN
    simp only [List.map_cons, List.sum_cons, List.length_cons, List.count_cons, trig_one b]
    push_cast
    by_cases h0 : b = 0
    · subst h0
      refine ⟨C, S, N, hS, hSN, hC, ?_, ?_, ?_⟩
      · simp [trig_zero_zero]; linarith
      · simp [trig_zero_zero]; linarith
      · simp; linarith
    by_cases h9 : b = 90
    · subst h9
      refine ⟨C, S, N, hS, hSN, hC, ?_, ?_, ?_⟩
      · simp [trig_zero_90]; linarith
      · simp [trig_zero_90]; linarith
      · simp; linarith
    by_cases h4 : b = 45
    · subst h4
      refine ⟨C, S, N, hS, hSN, hC, ?_, ?_, ?_⟩
      · simp [trig_zero_45]; linarith
      · simp [trig_zero_45]; linarith
      · simp; linarith
    by_cases h5 : b = -45
    · subst h5
      refine ⟨C, S, N, hS, hSN, hC, ?_, ?_, ?_⟩
      · simp [trig_zero_m45]; linarith
      · simp [trig_zero_m45]; linarith
      · simp; linarith
    · refine ⟨C + trig 0 b, S + trig 0 b ^ 2, N + 1, by positivity, ?_, ?_, ?_, ?_, ?_⟩
      · have : trig 0 b ^ 2 ≤ 1 := by
          have h1 := trig_one_le b
          rw [trig_one b] at h1
          linarith
        linarith
      · generalize trig 0 b = t
        have key : 2 * C * t ≤ N * t ^ 2 + S := by
          rcases hN.lt_or_eq with hN' | hN'
          · have : 0 ≤ N * (N * t ^ 2 + S - 2 * C * t) := by nlinarith [sq_nonneg (N * t - C)]
            have := nonneg_of_mul_nonneg_right this hN'
            linarith
          · rw [← hN'] at hC ⊢
            have : C = 0 := by nlinarith
            rw [this]; linarith
        nlinarith
      · simp [h0, h9]; linarith
      · simp [h0, h9]; linarith
      · simp [h0, h9, h4, h5]; linarith

theorem shares_quadratic (a b d N S C : ℝ) (ha : 0 ≤ a) (hb : 0 ≤ b) (hd : 0 ≤ d) (hS : 0 ≤ S) (hN : 0 ≤ N)
    (h : C ^ 2 ≤ N * S) : (a - b + C) ^ 2 ≤ (a + b + d + N) * (a + b + S) := by
  have k : ∀ t : ℝ, (t = C ∨ t = -C) → 0 ≤ N + S - 2 * t := by
    intro t ht
    have : t ^ 2 = C ^ 2 := by rcases ht with rfl | rfl <;> ring
    by_contra hneg
    push Not at hneg
    have h1 : 0 ≤ N + S := by linarith
    nlinarith [sq_nonneg (N - S)]
  have k1 := k C (Or.inl rfl)
  have k2 := k (-C) (Or.inr rfl)
  have e : (a + b + d + N) * (a + b + S) - (a - b + C) ^ 2 =
      4 * (a * b) + a * (N + S - 2 * C) + b * (N + S - 2 * (-C)) + (N * S - C ^ 2) + d * (a + b + S) := by ring
  have := mul_nonneg ha hb
  have := mul_nonneg ha k1
  have := mul_nonneg hb k2
  have : 0 ≤ d * (a + b + S) := mul_nonneg hd (by linarith)
  linarith

/-- A laminate of any angles with a share of at least `p` of 0 plies and of 90 plies, and of `2 p` of ±45 plies, is in the region. -/
theorem shares_region (p : ℝ) (hq : 0 < 1 - 4 * p) (ss : List ℤ) (hss : ss ≠ []) (h : PlyShares p ss) :
    AbdallaRegion p (lampamR ss 0) (lampamR ss 1) := by
  obtain ⟨h0, h90, h45⟩ := h
  obtain ⟨C, S, N, hS, hSN, hC, e1, e2, e3⟩ := shares_split ss
  have hN : 0 ≤ N := hS.trans hSN
  have hn : 0 < (ss.length : ℝ) := by exact_mod_cast List.length_pos_iff.2 hss
  rw [abdallaRegion_iff _ _ _ hq, lampamR_inplane ss 0 (by norm_num), lampamR_inplane ss 1 (by norm_num), e1, e2]
  generalize (ss.count 0 : ℝ) = n0 at *
  generalize (ss.count 90 : ℝ) = n9 at *
  generalize (ss.count 45 : ℝ) = n4 at *
  generalize (ss.count (-45) : ℝ) = n5 at *
  generalize (ss.length : ℝ) = n at *
  constructor
  · have q := shares_quadratic (n0 - p * n) (n9 - p * n) (n4 + n5 - 2 * p * n) N S C (by linarith) (by linarith)
      (by linarith) hS hN hC
    have e : (1 - 4 * p) ^ 2 + (1 - 4 * p) * ((2 * (n0 + n9 + S) - n) / n) - 2 * ((n0 - n9 + C) / n) ^ 2 =
        2 * ((n0 - p * n + (n9 - p * n) + (n4 + n5 - 2 * p * n) + N) * (n0 - p * n + (n9 - p * n) + S) -
          (n0 - p * n - (n9 - p * n) + C) ^ 2) / n ^ 2 := by
      have : n0 - p * n + (n9 - p * n) + (n4 + n5 - 2 * p * n) + N = (1 - 4 * p) * n := by rw [e3]; ring
      rw [this]
      field_simp
      ring
    rw [e]
    exact div_nonneg (by linarith) (sq_nonneg _)
  · rw [div_le_iff₀ hn]
    linarith

/-- **C67.** Every laminate, of any fibre angles, with at least the share `p` of 0 plies, the share `p` of 90 plies and the share `2 p` of
±45 plies is accepted by the rule on lamination parameters, and is at distance zero. -/
theorem C67_ply_shares (a : ConsArgs) (c : Cons) (hc : mkConstraints a = .ok c) (ss : List ℤ) (hss : ss ≠ [])
    (h : PlyShares (c.pAbdalla : ℚ) ss) : isTenPercentLPs c (lampamR ss 0) (lampamR ss 1) = true ∧
    (c.rule10 = true → c.rule10Abdalla = true → ∀ num, calcDistanceAbdalla c (lampamR ss 0) (lampamR ss 1) num = .ok (some 0)) := by
  have hq := (pAbdalla_bounds hc).2
  have hr := shares_region _ hq ss hss h
  refine ⟨(C67_check a c hc _ _).1 hr, fun h1 h2 num => ?_⟩
  obtain ⟨g1, g2⟩ := (abdallaRegion_iff _ _ _ hq).1 hr
  unfold calcDistanceAbdalla
  rw [if_pos ⟨h1, h2⟩]
  have : (0 : ℝ) < 1 / 10 ^ 15 := by positivity
  simp only []
  rw [if_pos ⟨by linarith, by linarith⟩]

/-! ### The distance -/

theorem foldl_min_le (l : List ℝ) (x : ℝ) : l.foldl min x ≤ x ∧ ∀ y ∈ l, l.foldl min x ≤ y := by
  induction l generalizing x with
  | nil => simp
  | cons b l ih =>
    rw [List.foldl_cons]
    obtain ⟨h1, h2⟩ := ih (min x b)
    refine ⟨h1.trans (min_le_left _ _), fun y hy => ?_⟩
    rcases List.mem_cons.1 hy with rfl | hy
    · exact h1.trans (min_le_right _ _)
    · exact h2 y hy

theorem foldl_min_mem (l : List ℝ) (x : ℝ) : l.foldl min x = x ∨ l.foldl min x ∈ l := by
  induction l generalizing x with
  | nil => simp
  | cons b l ih =>
    rw [List.foldl_cons]
    rcases ih (min x b) with h | h
    · rcases min_choice x b with h' | h'
      · left; rw [h, h']
      · right; rw [h, h']; simp
    · right; exact List.mem_cons_of_mem _ h

theorem pyMinR_isLeast (l : List ℝ) (m : ℝ) (h : pyMinR l = .ok m) : IsLeast {x | x ∈ l} m := by
  cases l with
  | nil => simp [pyMinR] at h
  | cons x xs =>
    simp only [pyMinR] at h
    have h := Except.ok.inj h
    subst h
    constructor
    · rcases foldl_min_mem xs x with h | h
      · rw [Set.mem_setOf_eq, h]; simp
      · exact List.mem_cons_of_mem _ h
    · intro y hy
      rcases List.mem_cons.1 hy with rfl | hy
      · exact (foldl_min_le xs y).1
      · exact (foldl_min_le xs x).2 y hy

/-- The points of the two curves with which the code represents the boundary of the region (`q = 1 - 4 p`). -/
def codeBoundary (q : ℝ) (num : Nat) : Set (ℝ × ℝ) :=
  {P | ∃ t ∈ linspace (- Real.sqrt q) (Real.sqrt q) num, P = pointParabola q t ∨ P = pointStraight q t}

theorem distance_outside (c : Cons) (h1 : c.rule10 = true) (h2 : c.rule10Abdalla = true) (x y : ℝ) (num : Nat) (hn : 0 < num)
    (hout : ¬ (0 < (1 - 4 * ((c.pAbdalla : ℚ) : ℝ)) ^ 2 + (1 - 4 * ((c.pAbdalla : ℚ) : ℝ)) * y - 2 * x ^ 2 + 1 / 10 ^ 15 ∧
      0 < 1 - 4 * ((c.pAbdalla : ℚ) : ℝ) - y + 1 / 10 ^ 15)) :
    ∃ d, calcDistanceAbdalla c x y num = .ok (some d) ∧
      IsLeast {r | ∃ P ∈ codeBoundary (1 - 4 * ((c.pAbdalla : ℚ) : ℝ)) num, r = distance2 (x, y) P} d := by
  unfold calcDistanceAbdalla
  rw [if_pos ⟨h1, h2⟩]
  simp only [gt_iff_lt]
  rw [if_neg hout]
  generalize (1 - 4 * ((c.pAbdalla : ℚ) : ℝ)) = q at *
  have hl : linspace (- Real.sqrt q) (Real.sqrt q) num ≠ [] := by
    intro h
    have := congrArg List.length h
    simp [linspace] at this
    omega
  have ex : ∀ l : List ℝ, l ≠ [] → ∃ m, pyMinR l = .ok m := by
    intro l hl
    cases l with
    | nil => exact absurd rfl hl
    | cons x xs => exact ⟨_, rfl⟩
  obtain ⟨m1, e1⟩ := ex ((linspace (- Real.sqrt q) (Real.sqrt q) num).map (fun t : ℝ => distance2 (x, y) (pointParabola q t))) (by simpa using hl)
  obtain ⟨m2, e2⟩ := ex ((linspace (- Real.sqrt q) (Real.sqrt q) num).map (fun t : ℝ => distance2 (x, y) (pointStraight q t))) (by simpa using hl)
  rw [e1, e2]
  refine ⟨min m1 m2, rfl, ?_, ?_⟩
  · obtain ⟨g1, _⟩ := pyMinR_isLeast _ _ e1
    obtain ⟨g2, _⟩ := pyMinR_isLeast _ _ e2
    rw [Set.mem_setOf_eq, List.mem_map] at g1 g2
    obtain ⟨t1, ht1, r1⟩ := g1
    obtain ⟨t2, ht2, r2⟩ := g2
    rcases min_choice m1 m2 with h | h
    · rw [h]; exact ⟨_, ⟨t1, ht1, Or.inl rfl⟩, r1.symm⟩
    · rw [h]; exact ⟨_, ⟨t2, ht2, Or.inr rfl⟩, r2.symm⟩
  · rintro r ⟨P, ⟨t, ht, rfl | rfl⟩, rfl⟩
    · exact (min_le_left _ _).trans ((pyMinR_isLeast _ _ e1).2 (List.mem_map.2 ⟨t, ht, rfl⟩))
    · exact (min_le_right _ _).trans ((pyMinR_isLeast _ _ e2).2 (List.mem_map.2 ⟨t, ht, rfl⟩))

theorem codeBoundary_eq (q : ℝ) (num : Nat) (x y d : ℝ)
    (h : IsLeast {r | ∃ P ∈ codeBoundary q num, r = distance2 (x, y) P} d) :
    IsLeast {r | ∃ x' y', AbdallaCurves q num x' y' ∧ r = euclid x y x' y'} d := by
  have e : {r | ∃ P ∈ codeBoundary q num, r = distance2 (x, y) P} = {r | ∃ x' y', AbdallaCurves q num x' y' ∧ r = euclid x y x' y'} := by
    ext r
    constructor
    · rintro ⟨P, ⟨t, ht, hP⟩, rfl⟩
      unfold linspace at ht
      obtain ⟨k, hk, rfl⟩ := List.mem_map.1 ht
      have ha : AbdallaAbscissa q num (- Real.sqrt q + (k : ℝ) * ((Real.sqrt q - - Real.sqrt q) / ((num : ℝ) - 1))) :=
        ⟨k, List.mem_range.1 hk, by ring⟩
      rcases hP with rfl | rfl
      · exact ⟨_, _, ⟨ha, Or.inl rfl⟩, rfl⟩
      · exact ⟨_, _, ⟨ha, Or.inr rfl⟩, rfl⟩
    · rintro ⟨x', y', ⟨⟨k, hk, rfl⟩, hy⟩, rfl⟩
      refine ⟨(_, y'), ⟨- Real.sqrt q + k * (2 * Real.sqrt q / (num - 1)), ?_, ?_⟩, rfl⟩
      · unfold linspace
        exact List.mem_map.2 ⟨k, List.mem_range.2 hk, by ring⟩
      · rcases hy with rfl | rfl
        · exact Or.inl rfl
        · exact Or.inr rfl
  rw [← e]
  exact h

theorem distance_spec (a : ConsArgs) (c : Cons) (hc : mkConstraints a = .ok c) (h1 : c.rule10 = true) (h2 : c.rule10Abdalla = true)
    (x y : ℝ) (num : Nat) (hn : 0 < num) :
    ∃ d, calcDistanceAbdalla c x y num = .ok (some d) ∧ 0 ≤ d ∧ (AbdallaRegion (c.pAbdalla : ℚ) x y → d = 0) ∧
      (isTenPercentLPs c x y = false →
        IsLeast {r | ∃ P ∈ codeBoundary (1 - 4 * ((c.pAbdalla : ℚ) : ℝ)) num, r = distance2 (x, y) P} d) := by
  have hq := (pAbdalla_bounds hc).2
  have t0 : (0 : ℝ) < 1 / 10 ^ 15 := by positivity
  by_cases hin : 0 < (1 - 4 * ((c.pAbdalla : ℚ) : ℝ)) ^ 2 + (1 - 4 * ((c.pAbdalla : ℚ) : ℝ)) * y - 2 * x ^ 2 + 1 / 10 ^ 15 ∧
      0 < 1 - 4 * ((c.pAbdalla : ℚ) : ℝ) - y + 1 / 10 ^ 15
  · refine ⟨0, ?_, le_refl _, fun _ => rfl, fun hf => ?_⟩
    · unfold calcDistanceAbdalla
      rw [if_pos ⟨h1, h2⟩]
      simp only [gt_iff_lt]
      rw [if_pos hin]
    · have := (isTenPercentLPs_iff c x y).2 ⟨hin.1.le, by linarith [hin.2]⟩
      rw [this] at hf
      cases hf
  · obtain ⟨d, e, hd⟩ := distance_outside c h1 h2 x y num hn hin
    refine ⟨d, e, ?_, fun hr => ?_, fun _ => hd⟩
    · obtain ⟨P, _, rfl⟩ := hd.1
      exact Real.sqrt_nonneg _
    · exfalso
      obtain ⟨g1, g2⟩ := (abdallaRegion_iff _ _ _ hq).1 hr
      exact hin ⟨by linarith, by linarith⟩

/-! ### Violations -/

theorem distance2_self (P : ℝ × ℝ) : distance2 P P = 0 := by simp [distance2]

theorem linspace_last (lo hi : ℝ) (num : Nat) (h : 2 ≤ num) : hi ∈ linspace lo hi num := by
  unfold linspace
  rw [List.mem_map]
  refine ⟨num - 1, List.mem_range.2 (by omega), ?_⟩
  have : (2 : ℝ) ≤ num := by exact_mod_cast h
  have h' : (num : ℝ) - 1 ≠ 0 := by linarith
  rw [Nat.cast_sub (by omega)]
  push_cast
  field_simp
  ring

/-- **C67.** With the rule switched on a distance is always returned; it is not negative, it is zero for the points of the region, and for
points that the check rejects it is the smallest distance to the sampled points of the two curves. -/
theorem C67_distance (a : ConsArgs) (c : Cons) (hc : mkConstraints a = .ok c) (h1 : c.rule10 = true) (h2 : c.rule10Abdalla = true)
    (x y : ℝ) (num : Nat) (hn : 0 < num) :
    ∃ d, calcDistanceAbdalla c x y num = .ok (some d) ∧ 0 ≤ d ∧ (AbdallaRegion (c.pAbdalla : ℚ) x y → d = 0) ∧
      (isTenPercentLPs c x y = false →
        IsLeast {r | ∃ x' y', AbdallaCurves (1 - 4 * ((c.pAbdalla : ℚ) : ℝ)) num x' y' ∧ r = euclid x y x' y'} d) := by
  obtain ⟨d, e, h0, hr, hl⟩ := distance_spec a c hc h1 h2 x y num hn
  exact ⟨d, e, h0, hr, fun h => codeBoundary_eq _ _ _ _ _ (hl h)⟩

/-- **C67 (violation).** "The distance of a point outside the region is not zero": for every share `p > 0` the point `(√q, q)`,
`q = 1 - 4 p`, is attainable by laminates and outside the region, and its distance is zero. -/
theorem C67_zero_outside_violation (a : ConsArgs) (c : Cons) (hc : mkConstraints a = .ok c) (h1 : c.rule10 = true)
    (h2 : c.rule10Abdalla = true) (hp : 0 < c.pAbdalla) (q : ℝ) (hq : q = 1 - 4 * ((c.pAbdalla : ℚ) : ℝ)) :
    LaminateRegion (Real.sqrt q) q ∧ ¬ AbdallaRegion (c.pAbdalla : ℚ) (Real.sqrt q) q ∧
    ∀ num, 2 ≤ num → calcDistanceAbdalla c (Real.sqrt q) q num = .ok (some 0) := by
  have hp' : (0 : ℝ) < ((c.pAbdalla : ℚ) : ℝ) := by exact_mod_cast hp
  have hq0 := (pAbdalla_bounds hc).2
  rw [← hq] at hq0
  have hs : Real.sqrt q ^ 2 = q := Real.sq_sqrt hq0.le
  refine ⟨⟨by rw [hs]; linarith, by linarith⟩, ?_, ?_⟩
  · rw [abdallaRegion_iff _ _ _ (by rw [← hq]; exact hq0), ← hq, hs]
    rintro ⟨h, _⟩
    have : q < 1 := by linarith
    nlinarith
  · intro num hnum
    obtain ⟨d, e, d0, _, _⟩ := distance_spec a c hc h1 h2 (Real.sqrt q) q num (by omega)
    by_cases hin : 0 < (1 - 4 * ((c.pAbdalla : ℚ) : ℝ)) ^ 2 + (1 - 4 * ((c.pAbdalla : ℚ) : ℝ)) * q - 2 * Real.sqrt q ^ 2 + 1 / 10 ^ 15 ∧
        0 < 1 - 4 * ((c.pAbdalla : ℚ) : ℝ) - q + 1 / 10 ^ 15
    · unfold calcDistanceAbdalla
      rw [if_pos ⟨h1, h2⟩]
      simp only [gt_iff_lt]
      rw [if_pos hin]
    · obtain ⟨d', e', hd⟩ := distance_outside c h1 h2 _ q num (by omega) hin
      have : d' = 0 := by
        apply le_antisymm
        · apply hd.2
          refine ⟨(Real.sqrt q, q), ⟨Real.sqrt q, ?_, Or.inr ?_⟩, (distance2_self _).symm⟩
          · rw [← hq]; exact linspace_last _ _ _ hnum
          · rw [← hq]; rfl
        · obtain ⟨P, _, rfl⟩ := hd.1
          exact Real.sqrt_nonneg _
      rw [e', this]

def abdallaArgs (p : ℚ) : ConsArgs := { rule10 := true, rule10Abdalla := true, percentAbdalla := p }

theorem abdCons (p : ℚ) (h : (match mkConstraints (abdallaArgs p) with
      | .ok c => c.rule10 && c.rule10Abdalla && decide (c.pAbdalla = p / 100)
      | .error _ => false) = true) :
    ∃ c, mkConstraints (abdallaArgs p) = .ok c ∧ c.rule10 = true ∧ c.rule10Abdalla = true ∧ c.pAbdalla = p / 100 := by
  rcases e : mkConstraints (abdallaArgs p) with m | c
  · rw [e] at h; cases h
  · rw [e] at h
    simp only [Bool.and_eq_true, decide_eq_true_eq] at h
    exact ⟨c, rfl, h.1.1, h.1.2, h.2⟩

/-- 81 plies at 0, one at 90 and 18 at 45 degrees. -/
def lam100 : List ℤ := List.replicate 81 0 ++ [90] ++ List.replicate 18 45

theorem lam100_lps : lampamR lam100 0 = 8 / 10 ∧ lampamR lam100 1 = 64 / 100 := by
  rw [lampamR_inplane _ _ (by norm_num), lampamR_inplane _ _ (by norm_num)]
  have e : lam100.length = 100 := by decide +kernel
  rw [e]
  unfold lam100
  simp only [List.map_append, List.map_replicate, List.map_cons, List.map_nil, List.sum_append, List.sum_replicate, List.sum_cons,
    List.sum_nil, trig_one, trig_zero_zero, trig_zero_90, trig_zero_45]
  constructor <;> norm_num

/-- **C67 (violation).** A laminate with a single 90 ply out of 100 plies, with a rule of 9%: the check rejects it, but the
distance (the penalty of the optimisation) is zero. -/
theorem C67_one_percent_violation : ∃ a c, mkConstraints a = .ok c ∧ c.rule10 = true ∧ c.rule10Abdalla = true ∧
    c.pAbdalla = 9 / 100 ∧ isTenPercentLPs c (lampamR lam100 0) (lampamR lam100 1) = false ∧
    calcDistanceAbdalla c (lampamR lam100 0) (lampamR lam100 1) = .ok (some 0) := by
  obtain ⟨c, hc, h1, h2, hp⟩ := abdCons 9 (by decide +kernel)
  refine ⟨_, c, hc, h1, h2, by rw [hp], ?_, ?_⟩
  · rw [lam100_lps.1, lam100_lps.2, Bool.eq_false_iff, Ne, isTenPercentLPs_iff, hp]
    rintro ⟨h, _⟩
    push_cast at h
    norm_num at h
  · have hq : ((16 : ℝ) / 25) = 1 - 4 * ((c.pAbdalla : ℚ) : ℝ) := by rw [hp]; push_cast; norm_num
    have := (C67_zero_outside_violation _ c hc h1 h2 (by rw [hp]; norm_num) (16 / 25) hq).2.2 10000 (by norm_num)
    have e : Real.sqrt (16 / 25) = 8 / 10 := by
      rw [Real.sqrt_eq_iff_mul_self_eq (by norm_num) (by norm_num)]
      norm_num
    rw [e] at this
    rw [lam100_lps.1, lam100_lps.2, show (64 : ℝ) / 100 = 16 / 25 by norm_num]
    exact this

/-- **C67 (violation).** The distance of a point is not its distance to the region: with a rule of 10%, a point at 1e-6 of a point of the
region gets a distance of more than 0.05 (the parabola of the code is not the boundary of the region). -/
theorem C67_overestimate_violation : ∃ a c, mkConstraints a = .ok c ∧ c.pAbdalla = 1 / 10 ∧
    ∃ (x y x0 y0 d : ℝ), AbdallaRegion (c.pAbdalla : ℚ) x0 y0 ∧ euclid x y x0 y0 = 1 / 10 ^ 6 ∧
      calcDistanceAbdalla c x y = .ok (some d) ∧ 1 / 20 ≤ d := by
  obtain ⟨c, hc, h1, h2, hp⟩ := abdCons 10 (by decide +kernel)
  have hpr : ((c.pAbdalla : ℚ) : ℝ) = 1 / 10 := by rw [hp]; push_cast; norm_num
  obtain ⟨d, e, _, _, hd⟩ := distance_spec _ c hc h1 h2 (3 / 10) (-3 / 10 - 1 / 10 ^ 6) 10000 (by norm_num)
  refine ⟨_, c, hc, by rw [hp]; norm_num, 3 / 10, -3 / 10 - 1 / 10 ^ 6, 3 / 10, -3 / 10, d, ?_, ?_, e, ?_⟩
  · rw [abdallaRegion_iff _ _ _ (by rw [hpr]; norm_num), hpr]
    norm_num
  · unfold euclid
    rw [Real.sqrt_eq_iff_mul_self_eq (by positivity) (by positivity)]
    norm_num
  · have hrej : isTenPercentLPs c (3 / 10) (-3 / 10 - 1 / 10 ^ 6) = false := by
      rw [Bool.eq_false_iff, Ne, isTenPercentLPs_iff, hpr]
      rintro ⟨h, _⟩
      norm_num at h
    obtain ⟨P, ⟨t, _, hP⟩, rfl⟩ := (hd hrej).1
    rw [hpr] at hP
    apply Real.le_sqrt_of_sq_le
    rcases hP with rfl | rfl
    · simp only [pointParabola]
      have g : 1 / 20 ≤ 12 / 13 * (3 / 10 - t) + 5 / 13 * (50 / 9 * t ^ 2 - 3 / 10 + 1 / 10 ^ 6) := by
        nlinarith [sq_nonneg (t - 27 / 125)]
      have e : (-3 / 10 - 1 / 10 ^ 6 - (2 * (t / (1 - 4 * (1 / 10))) ^ 2 - (1 - 4 * (1 / 10)))) =
          - (50 / 9 * t ^ 2 - 3 / 10 + 1 / 10 ^ 6) := by ring
      rw [e]
      generalize 50 / 9 * t ^ 2 - 3 / 10 + 1 / 10 ^ 6 = B at *
      generalize 3 / 10 - t = A at *
      nlinarith [sq_nonneg (5 / 13 * A - 12 / 13 * B)]
    · simp only [pointStraight]
      nlinarith [sq_nonneg ((3 : ℝ) / 10 - t)]

/-- The hypotheses of `C67_ply_shares` are met, with a rule of 10%. -/
example : ∃ a c, mkConstraints a = .ok c ∧ c.rule10 = true ∧ c.rule10Abdalla = true ∧
    PlyShares (c.pAbdalla : ℚ) [0, 45, 60, 90, -45, 0, 30, 90, 45, 60] := by
  obtain ⟨c, hc, h1, h2, hp⟩ := abdCons 10 (by decide +kernel)
  refine ⟨_, c, hc, h1, h2, ?_⟩
  unfold PlyShares
  rw [hp]
  simp
  norm_num

/-- Laminates with fewer 90 plies than the share of the rule may be accepted: the rule on lamination parameters is weaker than the one on
ply counts (25 plies at ±45, 23 at 0, 2 at 90: 4% of 90 plies, rule of 10%). -/
theorem C67_weaker_than_counts : ∃ a c, mkConstraints a = .ok c ∧ c.pAbdalla = 1 / 10 ∧ ∃ ss : List ℤ, ss.length = 50 ∧
    ss.count 90 = 2 ∧ AbdallaRegion (c.pAbdalla : ℚ) (lampamR ss 0) (lampamR ss 1) := by
  obtain ⟨c, hc, h1, h2, hp⟩ := abdCons 10 (by decide +kernel)
  have hpr : ((c.pAbdalla : ℚ) : ℝ) = 1 / 10 := by rw [hp]; push_cast; norm_num
  refine ⟨_, c, hc, by rw [hp]; norm_num,
    List.replicate 23 0 ++ [90, 90] ++ List.replicate 13 45 ++ List.replicate 12 (-45), by decide +kernel, by decide +kernel, ?_⟩
  rw [abdallaRegion_iff _ _ _ (by rw [hpr]; norm_num), hpr, lampamR_inplane _ _ (by norm_num), lampamR_inplane _ _ (by norm_num)]
  simp only [List.map_append, List.map_replicate, List.map_cons, List.map_nil, List.sum_append, List.sum_replicate, List.sum_cons,
    List.sum_nil, trig_one, trig_zero_zero, trig_zero_90, trig_zero_45, trig_zero_m45, List.length_append, List.length_replicate,
    List.length_cons, List.length_nil]
  norm_num

end Bella
