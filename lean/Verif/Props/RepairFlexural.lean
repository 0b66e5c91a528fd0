import Verif.Props.FlexuralSwap
import Mathlib.Tactic.FieldSimp
/-
C56: the flexural refinement as a whole, `repair_flexural`.
-/
namespace Bella

/-! ### the objective is bounded -/

theorem height_mono (n i : Nat) : Spec.height n i ≤ Spec.height n (i + 1) := by
  unfold Spec.height
  have : 2 * (i : ℚ) / n ≤ 2 * ((i + 1 : Nat) : ℚ) / n := by
    apply div_le_div_of_nonneg_right _ (Nat.cast_nonneg n)
    push_cast
    linarith
  linarith

theorem cube_mono {x y : ℚ} (h : x ≤ y) : x ^ 3 ≤ y ^ 3 := by
  have h2 := sq_nonneg (x + y)
  have h3 := sq_nonneg x
  have h4 := sq_nonneg y
  nlinarith [mul_nonneg (sub_nonneg.2 h) (by nlinarith : (0 : ℚ) ≤ x ^ 2 + x * y + y ^ 2)]

theorem zipIdx_sum_abs_le (c : Int → ℚ) (hc : ∀ a, |c a| ≤ 1) (n : Nat) : ∀ (l : List Int) (k : Nat),
    |((l.zipIdx k).map (fun p => c p.1 * (Spec.height n (p.2 + 1) ^ 3 - Spec.height n p.2 ^ 3))).sum|
      ≤ Spec.height n (k + l.length) ^ 3 - Spec.height n k ^ 3 := by
  intro l
  induction l with
  | nil => intro k; simp
  | cons a l ih =>
    intro k
    rw [List.zipIdx_cons, List.map_cons, List.sum_cons]
    refine (abs_add_le _ _).trans ?_
    have h1 := ih (k + 1)
    have h2 : |c a * (Spec.height n (k + 1) ^ 3 - Spec.height n k ^ 3)|
        ≤ Spec.height n (k + 1) ^ 3 - Spec.height n k ^ 3 := by
      rw [abs_mul, abs_of_nonneg (sub_nonneg.2 (cube_mono (height_mono n k)))]
      have := hc a
      have h3 := sub_nonneg.2 (cube_mono (height_mono n k))
      nlinarith
    rw [show k + (a :: l).length = k + 1 + l.length by simp; omega]
    linarith

theorem lampamD_abs_le (c : Int → ℚ) (hc : ∀ a, |c a| ≤ 1) (ss : List Int) : |Spec.lampamD c ss| ≤ 1 := by
  unfold Spec.lampamD
  have h := zipIdx_sum_abs_le c hc ss.length ss 0
  rcases Nat.eq_zero_or_pos ss.length with h0 | h0
  · have : ss = [] := List.eq_nil_of_length_eq_zero h0
    subst this
    simp
  · have e1 : Spec.height ss.length (0 + ss.length) = 1 := by
      have : (ss.length : ℚ) ≠ 0 := by exact_mod_cast h0.ne'
      unfold Spec.height
      rw [Nat.zero_add]
      field_simp
      ring
    have e2 : Spec.height ss.length 0 = -1 := by unfold Spec.height; simp
    rw [e1, e2] at h
    rw [abs_div]
    rw [show |(2 : ℚ)| = 2 by norm_num]
    linarith

/-- With values of the trigonometric functions and targets in `[-1, 1]` and coefficients between 0 and 1 the objective
is at most 16: the hypothesis on the value `1e10` holds. -/
theorem flexObjective_le (D : FlexData) (h1 : ∀ a k, |D.cs a k| ≤ 1) (h2 : ∀ k, |D.target k| ≤ 1)
    (h3 : ∀ k, 0 ≤ D.coeffs k ∧ D.coeffs k ≤ 1) (ss : Stack) :
    Spec.flexObjective D.cs D.coeffs D.target ss ≤ 10 ^ 10 := by
  unfold Spec.flexObjective
  have : ∀ k ∈ Finset.range 4,
      D.coeffs k * (Spec.lampamD (fun a => D.cs a k) ss - D.target k) ^ 2 ≤ 4 := by
    intro k _
    have a1 := lampamD_abs_le (fun a => D.cs a k) (fun a => h1 a k) ss
    have a2 := h2 k
    have a3 := h3 k
    rw [abs_le] at a1 a2
    have : (Spec.lampamD (fun a => D.cs a k) ss - D.target k) ^ 2 ≤ 4 := by nlinarith
    have h0 := sq_nonneg (Spec.lampamD (fun a => D.cs a k) ss - D.target k)
    nlinarith
  refine (Finset.sum_le_sum this).trans ?_
  norm_num

/-! ### the passes -/

theorem divisible_of_ok {c : Cons} {attr : DamTolAttr} {D : FlexData} {lampamOf : Stack → Nat → ℚ} {ss res : Stack}
    (h : repairFlexural1 c attr D lampamOf ss = .ok res) : Divisible c ss := by
  by_contra hd
  unfold repairFlexural1 findBlocks at h
  obtain ⟨bs, hbs, _⟩ := bind_ok.1 h
  obtain ⟨st, hst, _⟩ := bind_ok.1 hbs
  unfold Divisible at hd
  unfold blockStart at hst
  by_cases he : ss = []
  · subst he
    simp at hst
  · have hl : 0 < ss.length := List.length_pos_iff.2 he
    rw [not_and] at hd
    have hd := hd he
    push Not at hd
    obtain ⟨hs, ho, hall⟩ := hd
    rw [if_pos hs, if_pos ho, midStart_error _ (fun i hi => hall i hi)] at hst
    cases hst

/-- The laminate reported to satisfy the rules, apart from the `lo` outer plies of each face for the
disorientation. -/
def RulesOK (c : Cons) (lo : Nat) (ss : Stack) : Prop :=
  (c.diso = true → Spec.PairsWithin c.deltaAngle ss lo (ss.length - 1 - lo)) ∧
  (c.contig = true → Spec.ContigOK c.nContig ss)

theorem flexural2_rules {c : Cons} (hc : ContigCons c) {attr : DamTolAttr} {D : FlexData} {nD2 : Nat}
    (hn : 2 ≤ nD2) {ss : Stack} (hs : c.sym = true → Spec.Symmetric ss)
    (h0 : Spec.flexObjective D.cs D.coeffs D.target ss ≤ 10 ^ 10) (hin : InRange ss) {lo : Nat}
    (hlo : lo ≤ keptPlies c attr) :
    ∃ res, repairFlexural2 c attr D nD2 ss = .ok res ∧ res.Perm ss ∧ (c.sym = true → Spec.Symmetric res) ∧
      (RulesOK c lo ss → RulesOK c lo res) := by
  obtain ⟨res, e, h1, h2, _, _, _, _, _, h9⟩ := C31_flexural_moves hc attr D hn hs h0
  have hl := h1.length_eq
  refine ⟨res, e, h1, h2, ?_⟩
  rintro ⟨r1, r2⟩
  refine ⟨fun hd => ?_, fun hd => h9 hd (r2 hd)⟩
  exact (C31_flexural_moves_inner hc attr D hn hs h0 e hlo).1 hd hin (r1 hd)

/-- `repair_flexural`, all variants: the plies are only re-ordered. -/
theorem flexPasses_perm {c : Cons} (hc : ContigCons c) {attr : DamTolAttr} {D : FlexData}
    {lampamOf : Stack → Nat → ℚ} {nD2 : Nat} (hn : 2 ≤ nD2) {checked : Bool}
    (h0 : ∀ r : Stack, Spec.flexObjective D.cs D.coeffs D.target r ≤ 10 ^ 10) : ∀ (k : Nat) {ss res : Stack},
    (c.sym = true → Spec.Symmetric ss) → flexPasses c attr D lampamOf nD2 checked k ss = .ok res →
    res.Perm ss ∧ (c.sym = true → Spec.Symmetric res) := by
  intro k
  induction k with
  | zero =>
    intro ss res hs h
    rw [flexPasses] at h
    obtain rfl := Except.ok.inj h
    exact ⟨List.Perm.refl _, hs⟩
  | succ k ih =>
    intro ss res hs h
    rw [flexPasses] at h
    obtain ⟨s1, e1, h⟩ := bind_ok.1 h
    obtain ⟨s1', f1, f2, f3, _⟩ := C32_swaps_reorder (attr := attr) (D := D) (lampamOf := lampamOf)
      (divisible_of_ok e1) hs
    rw [e1] at f1
    obtain rfl := Except.ok.inj f1
    obtain ⟨_, _, h⟩ := bind_ok.1 h
    obtain ⟨_, _, h⟩ := bind_ok.1 h
    obtain ⟨s2, e2, h⟩ := bind_ok.1 h
    obtain ⟨s2', g1, g2, g3, _⟩ := C31_flexural_moves hc attr D hn f3 (h0 s1)
    rw [e2] at g1
    obtain rfl := Except.ok.inj g1
    obtain ⟨i1, i2⟩ := ih g3 h
    exact ⟨i1.trans (g2.trans f2), i2⟩

theorem flexPasses3_perm {c : Cons} (hc : ContigCons c) {attr : DamTolAttr} {D : FlexData} {nD2 : Nat}
    (h0 : ∀ r : Stack, Spec.flexObjective D.cs D.coeffs D.target r ≤ 10 ^ 10) : ∀ (k : Nat) {ss : Stack},
    (c.sym = true → Spec.Symmetric ss) →
    ∃ res, flexPasses3 c attr D nD2 k ss = .ok res ∧ res.Perm ss ∧ (c.sym = true → Spec.Symmetric res) := by
  intro k
  induction k with
  | zero => intro ss hs; exact ⟨ss, rfl, List.Perm.refl _, hs⟩
  | succ k ih =>
    intro ss hs
    obtain ⟨s1, e1, f1, f2, _⟩ := C31_flexural_redesign hc attr D nD2 hs (h0 ss)
    obtain ⟨res, e2, g1, g2⟩ := ih f2
    refine ⟨res, ?_, g1.trans f1, g2⟩
    rw [flexPasses3, e1]
    exact e2

/-- The tests after the swaps do not raise if the laminate satisfies the rules. -/
theorem flexCheck_ok {c : Cons} (hc : ContigCons c) {attr : DamTolAttr} {ss : Stack} (hin : InRange ss) {lo : Nat}
    (hlo : lo ≤ 1) (hk : lo ≤ keptPlies c attr) (h : RulesOK c lo ss) :
    flexCheckDiso c attr ss = .ok () ∧ flexCheckContig c ss = .ok () := by
  constructor
  · unfold flexCheckDiso
    split_ifs with hd
    · have hp := h.1 hd
      have key : ∀ (r n : Option Int), (r ≠ none ∨ n ≠ none) →
          (attr.twoPlies = true ↔ (r = some 2 ∨ r = some 3) ∨ n = some 2) →
          isDisoSs ss c.deltaAngle c.damTol r n = .ok true := by
        intro r n hrn htw
        cases hdt : c.damTol with
        | false =>
          rw [(C02_is_diso_ss_iff ss c.deltaAngle r n hin).1, disoOK_iff_pairs]
          have : lo = 0 := by
            unfold keptPlies at hk
            rw [hdt] at hk
            simpa using hk
          subst this
          exact hp
        | true =>
          by_cases ht : attr.twoPlies = true
          · have := htw.1 ht
            rw [(C02_is_diso_ss_dam_tol ss c.deltaAngle r n (by tauto) hin).1]
            rw [pairsWithin_iff_nth] at hp ⊢
            intro i h1 h2 h3
            exact hp i (by omega) (by omega) h3
          · unfold isDisoSs
            rw [if_pos rfl, if_neg (fun hh => ht (htw.2 hh)), if_neg (by tauto)]
      cases attr with
      | rule r =>
        have := key (some r) none (by simp) (by
          unfold DamTolAttr.twoPlies
          simp)
        dsimp only
        rw [this]
        rfl
      | nPlies k =>
        have := key none (some k) (by simp) (by
          unfold DamTolAttr.twoPlies
          simp)
        dsimp only
        rw [this]
        rfl
    · rfl
  · unfold flexCheckContig
    split_ifs with hd
    · obtain ⟨c2, c6, _⟩ := hc hd
      rw [(C04_is_contig_iff ss c.nContig c2 c6).1.2 (h.2 hd)]
      rfl
    · rfl

theorem flexPasses_rules {c : Cons} (hc : ContigCons c) {attr : DamTolAttr} {D : FlexData}
    {lampamOf : Stack → Nat → ℚ} {nD2 : Nat} (hn : 2 ≤ nD2) {checked : Bool}
    (h0 : ∀ r : Stack, Spec.flexObjective D.cs D.coeffs D.target r ≤ 10 ^ 10) {lo : Nat}
    (hlo : lo ≤ 1) (hk : lo ≤ keptPlies c attr) : ∀ (k : Nat) {ss : Stack}, ss ≠ [] →
    (c.sym = true → Spec.Symmetric ss) → (c.sym = true → ss.length % 2 = 0) → InRange ss → RulesOK c lo ss →
    ∃ res, flexPasses c attr D lampamOf nD2 checked k ss = .ok res ∧ res.Perm ss ∧
      (c.sym = true → Spec.Symmetric res) ∧ RulesOK c lo res := by
  intro k
  induction k with
  | zero => intro ss _ hs _ _ hr; exact ⟨ss, rfl, List.Perm.refl _, hs, hr⟩
  | succ k ih =>
    intro ss hne hs hev hin hr
    obtain ⟨s1, e1, f1, f2, _⟩ := C32_swaps_reorder (c := c) (attr := attr) (D := D) (lampamOf := lampamOf) (ss := ss)
      ⟨hne, fun h1 h2 => by have := hev h1; omega⟩ hs
    obtain ⟨_, w2, w3⟩ := C32_swaps_rules hne hs hev e1
    have l1 := f1.length_eq
    have r1 : RulesOK c lo s1 := ⟨fun hd => by rw [l1]; exact w3 hd lo (hr.1 hd), fun hd => w2 _ (hr.2 hd)⟩
    have in1 : InRange s1 := inRange_perm f1 hin
    obtain ⟨s2, e2, g1, g2, g3⟩ := flexural2_rules hc (attr := attr) hn f2 (h0 s1) in1 hk
    have l2 := g1.length_eq
    obtain ⟨res, e3, i1, i2, i3⟩ := ih (ss := s2) (by
        intro h; subst h
        simp at l2
        rw [← l2] at l1
        exact hne (List.eq_nil_of_length_eq_zero l1.symm))
      g2 (by rw [l2, l1]; exact hev) (inRange_perm g1 in1) (g3 r1)
    refine ⟨res, ?_, i1.trans (g1.trans f1), i2, i3⟩
    obtain ⟨c1, c2⟩ := flexCheck_ok hc (attr := attr) in1 hlo hk r1
    rw [flexPasses, e1]
    cases checked with
    | true =>
      simp only [bind, Except.bind, if_true]
      rw [c1]
      dsimp only
      rw [c2]
      dsimp only
      rw [e2]
      exact e3
    | false =>
      simp only [bind, Except.bind, pure, Except.pure]
      rw [e2]
      exact e3

/-- C56: `repair_flexural` does nothing if it is switched off or the coefficients are zero. -/
theorem C56_flexural_off {c : Cons} {attr : DamTolAttr} {D : FlexData} {lampamOf : Stack → Nat → ℚ} {nD2 nD3 : Nat}
    {multipanel switch coeffsZero : Bool} {ss : Stack} (h : switch = false ∨ coeffsZero = true) :
    repairFlexural c attr D lampamOf nD2 nD3 multipanel switch coeffsZero ss = .ok ss := by
  unfold repairFlexural
  rw [if_neg (by rcases h with rfl | rfl <;> simp)]

/-- C56: whatever the variant, if `repair_flexural` returns, it has only re-ordered the plies, and a symmetric
laminate is still symmetric. -/
theorem C56_flexural_reorders {c : Cons} (hc : ContigCons c) {attr : DamTolAttr} {D : FlexData}
    {lampamOf : Stack → Nat → ℚ} {nD2 nD3 : Nat} (hn : 2 ≤ nD2) {multipanel switch coeffsZero : Bool}
    (h0 : ∀ r : Stack, Spec.flexObjective D.cs D.coeffs D.target r ≤ 10 ^ 10) {ss res : Stack}
    (hs : c.sym = true → Spec.Symmetric ss)
    (h : repairFlexural c attr D lampamOf nD2 nD3 multipanel switch coeffsZero ss = .ok res) :
    res.Perm ss ∧ (c.sym = true → Spec.Symmetric res) := by
  unfold repairFlexural at h
  split_ifs at h
  · exact flexPasses_perm hc hn h0 nD3 hs h
  · obtain ⟨r, e, h1, h2⟩ := flexPasses3_perm hc (attr := attr) (nD2 := nD2) h0 nD3 hs
    rw [h] at e
    obtain rfl := Except.ok.inj e
    exact ⟨h1, h2⟩
  · obtain rfl := Except.ok.inj h
    exact ⟨List.Perm.refl _, hs⟩

/-- C56: on an asymmetric laminate, or a symmetric laminate with an even number of plies, that satisfies the
disorientation and contiguity rules (without exception, `lo = 0`, or with the outer ply of each face excepted for the
disorientation, `lo = 1`, if plies are protected there), `repair_flexural` returns normally a laminate that satisfies
them too. -/
theorem C56_flexural_rules {c : Cons} (hc : ContigCons c) {attr : DamTolAttr} {D : FlexData}
    {lampamOf : Stack → Nat → ℚ} {nD2 nD3 : Nat} (hn : 2 ≤ nD2) {multipanel switch coeffsZero : Bool}
    (h0 : ∀ r : Stack, Spec.flexObjective D.cs D.coeffs D.target r ≤ 10 ^ 10) {ss : Stack} (hne : ss ≠ [])
    (hs : c.sym = true → Spec.Symmetric ss) (hev : c.sym = true → ss.length % 2 = 0) (hin : InRange ss)
    {lo : Nat} (hlo : lo ≤ 1) (hk : lo ≤ keptPlies c attr)
    (hd : c.diso = true → Spec.PairsWithin c.deltaAngle ss lo (ss.length - 1 - lo))
    (hcg : c.contig = true → Spec.ContigOK c.nContig ss) :
    ∃ res, repairFlexural c attr D lampamOf nD2 nD3 multipanel switch coeffsZero ss = .ok res ∧
      res.Perm ss ∧ (c.sym = true → Spec.Symmetric res) ∧
      (c.diso = true → Spec.PairsWithin c.deltaAngle res lo (res.length - 1 - lo)) ∧
      (c.contig = true → Spec.ContigOK c.nContig res) := by
  unfold repairFlexural
  split_ifs with h1 h2
  · obtain ⟨res, e, p, s, r⟩ := flexPasses_rules hc hn h0 hlo hk nD3 hne hs hev hin ⟨hd, hcg⟩
      (attr := attr) (lampamOf := lampamOf) (checked := !multipanel)
    exact ⟨res, e, p, s, r.1, r.2⟩
  · obtain ⟨r, e, p, s⟩ := flexPasses3_perm hc (attr := attr) (nD2 := nD2) h0 nD3 hs
    push Not at h2
    exact ⟨r, e, p, s, fun h => absurd h h2.1, fun h => absurd h h2.2⟩
  · exact ⟨ss, rfl, List.Perm.refl _, hs, hd, hcg⟩

/-- What the tests after the swaps guarantee: nothing for the disorientation under a one-ply damage tolerance
rule. -/
theorem flexCheck_sound {c : Cons} (hc : ContigCons c) {attr : DamTolAttr} {ss : Stack} (hin : InRange ss)
    (h1 : flexCheckDiso c attr ss = .ok ()) (h2 : flexCheckContig c ss = .ok ()) :
    (c.diso = true → c.damTol = false → Spec.PairsWithin c.deltaAngle ss 0 (ss.length - 1 - 0)) ∧
    (c.diso = true → attr.twoPlies = true → Spec.PairsWithin c.deltaAngle ss 1 (ss.length - 1 - 1)) ∧
    (c.contig = true → Spec.ContigOK c.nContig ss) := by
  have key : c.diso = true → ∃ r n, isDisoSs ss c.deltaAngle c.damTol r n = .ok true ∧
      (attr.twoPlies = true → r = some 2 ∨ r = some 3 ∨ n = some 2) := by
    intro hd
    unfold flexCheckDiso at h1
    rw [if_pos hd] at h1
    obtain ⟨t, e, h1⟩ := bind_ok.1 h1
    cases t with
    | false => cases h1
    | true =>
      cases attr with
      | rule r => exact ⟨some r, none, e, by unfold DamTolAttr.twoPlies; simp⟩
      | nPlies k => exact ⟨none, some k, e, by unfold DamTolAttr.twoPlies; simp⟩
  refine ⟨?_, ?_, ?_⟩
  · intro hd hdt
    obtain ⟨r, n, e, _⟩ := key hd
    rw [hdt, (C02_is_diso_ss_iff ss c.deltaAngle r n hin).1, disoOK_iff_pairs] at e
    exact e
  · intro hd htw
    obtain ⟨r, n, e, hh⟩ := key hd
    cases hdt : c.damTol with
    | false =>
      rw [hdt, (C02_is_diso_ss_iff ss c.deltaAngle r n hin).1, disoOK_iff_pairs, pairsWithin_iff_nth] at e
      rw [pairsWithin_iff_nth]
      intro i a1 a2 a3
      exact e i (by omega) (by omega) a3
    | true =>
      rw [hdt, (C02_is_diso_ss_dam_tol ss c.deltaAngle r n (hh htw) hin).1] at e
      exact e
  · intro hd
    unfold flexCheckContig at h2
    rw [if_pos hd] at h2
    obtain ⟨t, e, h2⟩ := bind_ok.1 h2
    obtain ⟨c2, c6, _⟩ := hc hd
    cases t with
    | false => cases h2
    | true => exact (C04_is_contig_iff ss c.nContig c2 c6).1.1 e

/-- C56: the single-panel variant with at least one pass: whatever the laminate given (also symmetric with an odd
number of plies, also not satisfying the rules), a laminate that is returned satisfies the contiguity rule and the
disorientation rule (excepted the outer ply of each face under a two-ply damage tolerance rule; no guarantee under a
one-ply rule). -/
theorem C56_flexural_single_panel {c : Cons} (hc : ContigCons c) {attr : DamTolAttr} {D : FlexData}
    {lampamOf : Stack → Nat → ℚ} {nD2 nD3 : Nat} (hn : 2 ≤ nD2) (h3 : 1 ≤ nD3)
    (h0 : ∀ r : Stack, Spec.flexObjective D.cs D.coeffs D.target r ≤ 10 ^ 10) {ss res : Stack}
    (hs : c.sym = true → Spec.Symmetric ss) (hin : InRange ss)
    (h : repairFlexural c attr D lampamOf nD2 nD3 false true false ss = .ok res) :
    (c.diso = true → c.damTol = false → Spec.DisoOK c.deltaAngle res) ∧
    (c.diso = true → c.damTol = true → attr.twoPlies = true →
      Spec.PairsWithin c.deltaAngle res 1 (res.length - 2)) ∧
    (c.contig = true → Spec.ContigOK c.nContig res) := by
  unfold repairFlexural at h
  rw [if_pos ⟨rfl, rfl⟩] at h
  split_ifs at h with hdc
  · -- the last pass
    have hlast : ∀ k (ss res : Stack), (c.sym = true → Spec.Symmetric ss) → InRange ss →
        flexPasses c attr D lampamOf nD2 true (k + 1) ss = .ok res →
        (c.diso = true → c.damTol = false → Spec.PairsWithin c.deltaAngle res 0 (res.length - 1 - 0)) ∧
        (c.diso = true → c.damTol = true → attr.twoPlies = true →
          Spec.PairsWithin c.deltaAngle res 1 (res.length - 1 - 1)) ∧
        (c.contig = true → Spec.ContigOK c.nContig res) := by
      intro k
      induction k with
      | zero =>
        intro ss res hs hin h
        rw [flexPasses] at h
        obtain ⟨s1, e1, h⟩ := bind_ok.1 h
        obtain ⟨_, t1, h⟩ := bind_ok.1 h
        obtain ⟨_, t2, h⟩ := bind_ok.1 h
        obtain ⟨s2, e2, h⟩ := bind_ok.1 h
        rw [flexPasses] at h
        obtain rfl := Except.ok.inj h
        rw [if_pos rfl] at t1 t2
        obtain ⟨s1', f1, f2, f3, _⟩ := C32_swaps_reorder (attr := attr) (D := D) (lampamOf := lampamOf)
          (divisible_of_ok e1) hs
        rw [e1] at f1
        obtain rfl := Except.ok.inj f1
        have in1 : InRange s1 := inRange_perm f2 hin
        obtain ⟨q1, q2, q3⟩ := flexCheck_sound hc in1 t1 t2
        refine ⟨?_, ?_, ?_⟩
        · intro hd hdt
          exact (C31_flexural_moves_inner hc attr D hn f3 (h0 s1) e2 (lo := 0) (by omega)).1 hd in1 (q1 hd hdt)
        · intro hd hdt htw
          exact (C31_flexural_moves_inner hc attr D hn f3 (h0 s1) e2 (lo := 1) (by
            unfold keptPlies; rw [if_pos hdt, if_pos htw]; omega)).1 hd in1 (q2 hd htw)
        · intro hd
          obtain ⟨r, g1, _, _, _, _, _, _, _, g9⟩ := C31_flexural_moves hc attr D hn f3 (h0 s1)
          rw [e2] at g1
          obtain rfl := Except.ok.inj g1
          exact g9 hd (q3 hd)
      | succ k ih =>
        intro ss res hs hin h
        rw [flexPasses] at h
        obtain ⟨s1, e1, h⟩ := bind_ok.1 h
        obtain ⟨_, t1, h⟩ := bind_ok.1 h
        obtain ⟨_, t2, h⟩ := bind_ok.1 h
        obtain ⟨s2, e2, h⟩ := bind_ok.1 h
        obtain ⟨s1', f1, f2, f3, _⟩ := C32_swaps_reorder (attr := attr) (D := D) (lampamOf := lampamOf)
          (divisible_of_ok e1) hs
        rw [e1] at f1
        obtain rfl := Except.ok.inj f1
        obtain ⟨s2', g1, g2, g3, _⟩ := C31_flexural_moves hc attr D hn f3 (h0 s1)
        rw [e2] at g1
        obtain rfl := Except.ok.inj g1
        exact ih s2 res g3 (inRange_perm g2 (inRange_perm f2 hin)) h
    obtain ⟨k, rfl⟩ : ∃ k, nD3 = k + 1 := ⟨nD3 - 1, by omega⟩
    obtain ⟨a1, a2, a3⟩ := hlast k ss res hs hin h
    refine ⟨?_, a2, a3⟩
    intro hd hdt
    rw [disoOK_iff_pairs]
    exact a1 hd hdt
  · push Not at hdc
    exact ⟨fun h => absurd h hdc.1, fun h => absurd h hdc.1, fun h => absurd h hdc.2⟩

/-! ### violations and concrete cases -/

/-- C56 (violation): a symmetric laminate with an odd number of plies that satisfies the contiguity rule.  The variant
for several panels returns a laminate that breaks the rule, the variant for one panel raises an exception. -/
theorem C56_flexural_odd_symmetric : ∃ (c : Cons) (D : FlexData) (ss res : Stack),
    mkConstraints { sym := true, contig := true, nContig := 2 } = .ok c ∧
    Spec.Symmetric ss ∧ Spec.ContigOK 2 ss ∧
    repairFlexural c c.damTolAttr D (trueLampamD D) 10 1 true true false ss = .ok res ∧ ¬ Spec.ContigOK 2 res ∧
    repairFlexural c c.damTolAttr D (trueLampamD D) 10 1 false true false ss =
      .error (.exc "Contiguity rule not satisfie") := by
  obtain ⟨c, hc, ht⟩ := ok_of_test (mkConstraints { sym := true, contig := true, nContig := 2 })
    (fun (c : Cons) => decide (repairFlexural c c.damTolAttr exFlex (trueLampamD exFlex) 10 1 true true false
      [45, -45, 0, 90, 0, 45, 0, 90, 0, -45, 45] = .ok [0, 90, 0, -45, 45, 45, 45, -45, 0, 90, 0] ∧
      repairFlexural c c.damTolAttr exFlex (trueLampamD exFlex) 10 1 false true false
      [45, -45, 0, 90, 0, 45, 0, 90, 0, -45, 45] = .error (.exc "Contiguity rule not satisfie")))
    (by decide +kernel)
  have ht := of_decide_eq_true ht
  refine ⟨c, exFlex, [45, -45, 0, 90, 0, 45, 0, 90, 0, -45, 45], [0, 90, 0, -45, 45, 45, 45, -45, 0, 90, 0], hc, rfl, ?_,
    ht.1, ?_, ht.2⟩
  · rw [← (C04_is_contig_iff _ 2 (by decide) (by decide)).1]; decide +kernel
  · rw [← (C04_is_contig_iff _ 2 (by decide) (by decide)).2]; decide +kernel

/-- The hypotheses of `C56_flexural_rules` on a concrete case. -/
example : ∃ c, mkConstraints exSwapArgs = .ok c ∧ ContigCons c ∧ c.sym = true ∧ c.diso = true ∧ c.contig = true ∧
    (∀ r : Stack, Spec.flexObjective exFlex.cs exFlex.coeffs exFlex.target r ≤ 10 ^ 10) ∧
    Spec.DisoOK 45 [45, 90, 45, 0, 0, 45, 90, 45] ∧ Spec.ContigOK 2 [45, 90, 45, 0, 0, 45, 90, 45] ∧
    repairFlexural c c.damTolAttr exFlex (trueLampamD exFlex) 10 1 false true false [45, 90, 45, 0, 0, 45, 90, 45] =
      .ok [45, 0, 45, 90, 90, 45, 0, 45] := by
  obtain ⟨c, hc, ht⟩ := ok_of_test (mkConstraints exSwapArgs)
    (fun (c : Cons) => decide (ContigCons c ∧ c.sym = true ∧ c.diso = true ∧ c.contig = true ∧
      repairFlexural c c.damTolAttr exFlex (trueLampamD exFlex) 10 1 false true false
      [45, 90, 45, 0, 0, 45, 90, 45] = .ok [45, 0, 45, 90, 90, 45, 0, 45])) (by decide +kernel)
  have ht := of_decide_eq_true ht
  refine ⟨c, hc, ht.1, ht.2.1, ht.2.2.1, ht.2.2.2.1, ?_, ?_, ?_, ht.2.2.2.2⟩
  · apply flexObjective_le
    · intro a k
      show |exCS a k| ≤ 1
      unfold exCS
      split <;> (try split_ifs) <;> norm_num
    · intro k
      show |if k < 2 then (1 : ℚ) else 0| ≤ 1
      split_ifs <;> norm_num
    · intro k
      show (0 : ℚ) ≤ 1 / 3 ∧ (1 / 3 : ℚ) ≤ 1
      norm_num
  · rw [← (C02_is_diso_ss_iff _ 45 none none (by decide)).1]; decide +kernel
  · rw [← (C04_is_contig_iff _ 2 (by decide) (by decide)).1]; decide +kernel

end Bella
