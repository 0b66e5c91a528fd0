import Verif.Model.LaylaConstraints
import Verif.Props.Constraints
import Verif.Props.LaylaPruning
import Mathlib.Algebra.Order.BigOperators.Group.List
/-
C76: the constraint objects of LAYLA (src/LAYLA_V02/constraints.py).
-/
namespace Bella

/-- BELLA's arguments for the rules that both programs know. -/
def LaylaConsArgs.toBella (a : LaylaConsArgs) : ConsArgs :=
  { sym := a.sym, bal := a.bal, oopo := a.oopo, damTol := a.damTol, damTolRule := a.damTolRule, rule10 := a.rule10,
    diso := a.diso, deltaAngle := a.deltaAngle, contig := a.contig, nContig := a.nContig, setOfAngles := a.setOfAngles }

theorem bella_percents (a : LaylaConsArgs) : setPercentages a.toBella = .ok ⟨0, 0, 0, 0, 0, 0, 0⟩ := by
  have h0 : badPercent 0 = false := by decide +kernel
  have h1 : ¬ ((0 : ℚ) < 0 ∨ (0 : ℚ) > 249999999 / 10000000) := by norm_num
  have h2 : ∀ r : Bool, (if r = true then (.ok ⟨0, 0, 0, 0, 0, 0, 0⟩ : Py Percents) else .ok ⟨0, 0, 0, 0, 0, 0, 0⟩) =
      .ok ⟨0, 0, 0, 0, 0, 0, 0⟩ := by intro r; cases r <;> rfl
  unfold setPercentages LaylaConsArgs.toBella
  simp only [h0, h1, if_false, Bool.false_eq_true, ite_self, zero_div, add_zero, max_self]

/-- C76: a LAYLA constraint object exists exactly when the percentages are between 0 and 100 and BELLA's object
with the same rules and orientations exists; both then have the same rules, orientations, positions and table of
angled plies. -/
theorem C76_agrees (a : LaylaConsArgs) (c : Cons) : mkLaylaConstraints a = .ok c ↔
    ∃ b p, mkConstraints a.toBella = .ok b ∧ laylaPercentages a = .ok p ∧
      c = { b with ipo := (a.bal || a.ipo), covering := false, nCovering := 0, pdlSpacing := false, minDrop := 0,
                   pAbdalla := p.pAbdalla, p0 := p.p0, p45 := p.p45, p90 := p.p90, p135 := p.p135,
                   p45_135 := p.p45_135, pTot := p.pTot } := by
  have e1 : (a.toBella.nCovering = 0 ∨ a.toBella.nCovering = 1 ∨ a.toBella.nCovering = 2) := Or.inl rfl
  have e2 : ¬ (a.toBella.minDrop < 1) := show ¬ ((1 : Int) < 1) by decide
  unfold mkLaylaConstraints mkConstraints
  rw [if_neg (c := ¬ (a.toBella.nCovering = 0 ∨ _)) (not_not.2 e1)]
  by_cases hd : a.damTol = true ∧ ¬ (a.damTolRule = 1 ∨ a.damTolRule = 2 ∨ a.damTolRule = 3)
  · have hd' : a.toBella.damTol = true ∧
        ¬ (a.toBella.damTolRule = 1 ∨ a.toBella.damTolRule = 2 ∨ a.toBella.damTolRule = 3) := hd
    rw [if_pos hd, if_pos hd']
    simp
  have hd' : ¬ (a.toBella.damTol = true ∧
    ¬ (a.toBella.damTolRule = 1 ∨ a.toBella.damTolRule = 2 ∨ a.toBella.damTolRule = 3)) := hd
  rw [if_neg hd, if_neg hd', bella_percents]
  cases hp : laylaPercentages a with
  | error e => simp [bind, Except.bind]
  | ok p =>
    simp only [bind, Except.bind, throw, throwThe, MonadExceptOf.throw, pure, Except.pure, e2, if_false]
    simp only [LaylaConsArgs.toBella]
    split
    · rename_i g
      erw [if_pos g]
      simp
    rename_i g0
    erw [if_neg g0]
    split
    · rename_i g
      erw [if_pos g]
      simp
    rename_i g1
    erw [if_neg g1]
    split
    · rename_i g
      erw [if_pos g]
      simp
    rename_i g2
    erw [if_neg g2]
    split
    · rename_i g
      erw [if_pos g]
      simp
    rename_i g3
    erw [if_neg g3]
    split
    · rename_i g
      erw [if_pos g]
      simp
    rename_i g4
    erw [if_neg g4]
    split
    · rename_i g
      erw [if_pos g]
      simp
    rename_i g5
    erw [if_neg g5]
    constructor
    · intro h
      have h := Except.ok.inj h
      refine ⟨_, p, rfl, rfl, ?_⟩
      rw [← h]
      cases a.bal <;> rfl
    · rintro ⟨b, p', hb, hp', rfl⟩
      have hb := Except.ok.inj hb
      have hp' := Except.ok.inj hp'
      subst hb hp'
      cases a.bal <;> rfl

/-- C76: the set of orientations of a LAYLA constraint object is strictly increasing, contains exactly the
orientations given (without repetition), lies in `(-90, 90]` and contains the opposite of each orientation but 90;
the positions and the table of the angled plies are exact. -/
theorem C76_angles (a : LaylaConsArgs) (c : Cons) (h : mkLaylaConstraints a = .ok c) :
    c.angles.Pairwise (· < ·) ∧ (∀ x, x ∈ c.angles ↔ x ∈ a.setOfAngles) ∧ a.setOfAngles.Nodup ∧
    c.nAngles = c.angles.length ∧ (∀ x ∈ c.angles, -90 < x ∧ x ≤ 90) ∧ (∀ x ∈ c.angles, x ≠ 90 → -x ∈ c.angles) ∧
    (a.rule10 = true → 0 ∈ c.angles ∧ 45 ∈ c.angles ∧ 90 ∈ c.angles ∧ -45 ∈ c.angles) ∧
    (∀ x i, c.indAngles.lookup x = some i ↔ c.angles[i]? = some x ∨ (x = -90 ∧ c.angles[i]? = some 90)) ∧
    (∀ x i j, (x, i, j) ∈ c.anglesBal ↔ 0 < x ∧ x < 90 ∧ c.angles[i]? = some x ∧ c.angles[j]? = some (-x)) := by
  obtain ⟨b, p, hb, _, rfl⟩ := (C76_agrees a c).1 h
  obtain ⟨g1, g2, g3, g4, g5, g6, _, g8⟩ := C14_angles _ b hb
  exact ⟨g1, g2, g3, g4, g5, g6, g8, C14_dict _ b hb, C14_angles_bal _ b hb⟩

/-- C76: the switches.  Balance implies in-plane orthotropy; the damage tolerance rule is 1, 2 or 3, or 0 when
damage tolerance is off; the contiguity limit is never 1 when contiguity is on and the disorientation limit never
restricts when disorientation is off. -/
theorem C76_rules (a : LaylaConsArgs) (c : Cons) (h : mkLaylaConstraints a = .ok c) :
    (c.sym = a.sym ∧ c.bal = a.bal ∧ c.oopo = a.oopo ∧ c.damTol = a.damTol ∧ c.rule10 = a.rule10 ∧ c.diso = a.diso ∧
      c.contig = a.contig) ∧
    (c.ipo = true ↔ a.bal = true ∨ a.ipo = true) ∧
    (c.damTol = true → c.damTolAttr = .rule a.damTolRule ∧ (a.damTolRule = 1 ∨ a.damTolRule = 2 ∨ a.damTolRule = 3)) ∧
    (c.damTol = false → c.damTolAttr = .rule 0) ∧
    (c.contig = true → c.nContig = a.nContig ∧ c.nContigC = a.nContig ∧ a.nContig ≠ 1) ∧
    (c.contig = false → c.nContig = 1 ∧ c.nContigC = 10 ^ 10) ∧
    (c.diso = true → c.deltaAngle = a.deltaAngle) ∧
    (c.diso = false → ∀ x y : Int, Spec.WithinAngle c.deltaAngle x y) := by
  obtain ⟨b, p, hb, _, rfl⟩ := (C76_agrees a c).1 h
  obtain ⟨_, _, hr, _, hk, _, _, _, _, _, _, rfl⟩ := mkConstraints_inv _ b hb
  simp only [LaylaConsArgs.toBella] at hr hk ⊢
  refine ⟨by simp, by simp, fun h => ⟨by simp [h], hr h⟩, fun h => by simp [h],
    fun h => ⟨by simp [h], by simp [h], fun h1 => hk ⟨h, h1⟩⟩, fun h => by simp [h], fun h => by simp [h], ?_⟩
  intro hd x y
  change Spec.WithinAngle (if a.diso = true then a.deltaAngle else 180) x y
  rw [if_neg (by simp [hd])]
  refine ⟨-((x - y) / 180), ?_⟩
  rw [abs_le]
  omega

/-- Shares of the plies at 0, 45, 90 and -45 degrees that meet minimum shares (each direction, and +-45 together). -/
structure SharesMeet (p0 p45 p90 p135 p45_135 f0 f45 f90 f135 : ℚ) : Prop where
  s0 : p0 ≤ f0
  s45 : p45 ≤ f45
  s90 : p90 ≤ f90
  s135 : p135 ≤ f135
  s45_135 : p45_135 ≤ f45 + f135

theorem laylaPercentages_inv (a : LaylaConsArgs) (p : Percents) (h : laylaPercentages a = .ok p) :
    (0 ≤ a.percent0 ∧ a.percent0 ≤ 100) ∧ (0 ≤ a.percent45 ∧ a.percent45 ≤ 100) ∧
    (0 ≤ a.percent90 ∧ a.percent90 ≤ 100) ∧ (0 ≤ a.percent135 ∧ a.percent135 ≤ 100) ∧
    (0 ≤ a.percent45_135 ∧ a.percent45_135 ≤ 100) ∧
    p = if a.rule10 = true then ⟨0, a.percent0 / 100, a.percent45 / 100, a.percent90 / 100, a.percent135 / 100,
      max a.percent45_135 (a.percent45 + a.percent135) / 100,
      max (a.percent0 / 100 + a.percent45 / 100 + a.percent90 / 100 + a.percent135 / 100)
        (a.percent0 / 100 + max a.percent45_135 (a.percent45 + a.percent135) / 100 + a.percent90 / 100)⟩
      else ⟨0, 0, 0, 0, 0, 0, 0⟩ := by
  unfold laylaPercentages badPercent at h
  simp only [Bool.or_eq_true, decide_eq_true_eq] at h
  split at h
  · cases h
  rename_i g1
  split at h
  · cases h
  rename_i g2
  split at h
  · cases h
  rename_i g3
  split at h
  · cases h
  rename_i g4
  split at h
  · cases h
  rename_i g5
  simp only [not_or, not_lt, gt_iff_lt] at g1 g2 g3 g4 g5
  refine ⟨g1, g2, g3, g4, g5, ?_⟩
  split at h
  · rename_i r
    rw [if_pos r]
    exact (Except.ok.inj h).symm
  · rename_i r
    rw [if_neg r]
    exact (Except.ok.inj h).symm

/-- C76: the stored percentages require exactly what was asked for: shares of plies meet them if and only if they
meet the percentages given (no requirement is lost when the ones for +45 and -45 degrees are given together with one
for both, as it is in BELLA), and nothing when the rule is off. -/
theorem C76_percentages (a : LaylaConsArgs) (c : Cons) (h : mkLaylaConstraints a = .ok c) (f0 f45 f90 f135 : ℚ)
    (hf : 0 ≤ f0 ∧ 0 ≤ f45 ∧ 0 ≤ f90 ∧ 0 ≤ f135) :
    SharesMeet c.p0 c.p45 c.p90 c.p135 c.p45_135 f0 f45 f90 f135 ↔
      (a.rule10 = true → SharesMeet (a.percent0 / 100) (a.percent45 / 100) (a.percent90 / 100) (a.percent135 / 100)
        (a.percent45_135 / 100) f0 f45 f90 f135) := by
  obtain ⟨b, p, _, hp, rfl⟩ := (C76_agrees a c).1 h
  obtain ⟨_, _, _, _, _, rfl⟩ := laylaPercentages_inv a p hp
  by_cases hr : a.rule10 = true
  · simp only [hr, if_true, forall_const]
    constructor
    · rintro ⟨g1, g2, g3, g4, g5⟩
      refine ⟨g1, g2, g3, g4, le_trans ?_ g5⟩
      have := le_max_left a.percent45_135 (a.percent45 + a.percent135)
      linarith
    · rintro ⟨g1, g2, g3, g4, g5⟩
      refine ⟨g1, g2, g3, g4, ?_⟩
      rcases max_cases a.percent45_135 (a.percent45 + a.percent135) with ⟨e, _⟩ | ⟨e, _⟩ <;> rw [e] <;> linarith
  · simp only [hr, Bool.false_eq_true, if_false, false_implies, iff_true]
    exact ⟨hf.1, hf.2.1, hf.2.2.1, hf.2.2.2, by linarith⟩

/-- C76: `percent_tot` is the least share of the plies that the 10% rule requires in the four directions. -/
theorem C76_percent_tot (a : LaylaConsArgs) (c : Cons) (h : mkLaylaConstraints a = .ok c) :
    (∀ f0 f45 f90 f135 : ℚ, SharesMeet c.p0 c.p45 c.p90 c.p135 c.p45_135 f0 f45 f90 f135 →
      c.pTot ≤ f0 + f45 + f90 + f135) ∧
    (∃ f0 f45 f90 f135 : ℚ, 0 ≤ f0 ∧ 0 ≤ f45 ∧ 0 ≤ f90 ∧ 0 ≤ f135 ∧
      SharesMeet c.p0 c.p45 c.p90 c.p135 c.p45_135 f0 f45 f90 f135 ∧ c.pTot = f0 + f45 + f90 + f135) ∧
    c.pTot = c.p0 + c.p90 + c.p45_135 := by
  obtain ⟨b, p, _, hp, rfl⟩ := (C76_agrees a c).1 h
  obtain ⟨h1, h2, h3, h4, h5, rfl⟩ := laylaPercentages_inv a p hp
  have hm := le_max_right a.percent45_135 (a.percent45 + a.percent135)
  by_cases hr : a.rule10 = true
  · simp only [hr, if_true]
    generalize max a.percent45_135 (a.percent45 + a.percent135) = m at hm ⊢
    have hmax : max (a.percent0 / 100 + a.percent45 / 100 + a.percent90 / 100 + a.percent135 / 100)
        (a.percent0 / 100 + m / 100 + a.percent90 / 100) = a.percent0 / 100 + a.percent90 / 100 + m / 100 := by
      rw [max_eq_right (by linarith)]; ring
    rw [hmax]
    refine ⟨?_, ⟨a.percent0 / 100, m / 100 - a.percent135 / 100, a.percent90 / 100, a.percent135 / 100, ?_⟩, rfl⟩
    · rintro f0 f45 f90 f135 ⟨g1, g2, g3, g4, g5⟩
      linarith
    · refine ⟨by linarith, by linarith, by linarith, by linarith, ⟨le_refl _, by linarith, le_refl _, le_refl _, by linarith⟩,
        by ring⟩
  · simp only [hr, Bool.false_eq_true, if_false]
    refine ⟨?_, ⟨0, 0, 0, 0, by norm_num, by norm_num, by norm_num, by norm_num,
      ⟨by norm_num, by norm_num, by norm_num, by norm_num, by norm_num⟩, by norm_num⟩, by norm_num⟩
    rintro f0 f45 f90 f135 ⟨g1, g2, g3, g4, g5⟩
    linarith

/-- The shares of a laminate in the four directions add up to at most one. -/
theorem shares_le_one (ss : Stack) (hne : ss ≠ []) :
    ((ss.count 0 : ℚ) / ss.length) + (ss.count 45 : ℚ) / ss.length + (ss.count 90 : ℚ) / ss.length +
      (ss.count (-45) : ℚ) / ss.length ≤ 1 := by
  have hl : (0 : ℚ) < ss.length := by exact_mod_cast List.length_pos_iff.2 hne
  rw [← add_div, ← add_div, ← add_div, div_le_one hl]
  have : ss.count 0 + ss.count 45 + ss.count 90 + ss.count (-45) ≤ ss.length := by
    clear hl hne
    induction ss with
    | nil => simp
    | cons x t ih =>
      simp only [List.count_cons, List.length_cons, beq_iff_eq]
      split_ifs <;> omega
  exact_mod_cast this

/-- C76, violation: the total of the percentages is not checked: an object that asks for more than 100 % is built
(a message is printed), and then no laminate at all meets its 10% rule. -/
theorem C76_total_violation : ∃ (a : LaylaConsArgs) (c : Cons), mkLaylaConstraints a = .ok c ∧ c.rule10 = true ∧
    c.p45_135 = 6 / 5 ∧
    ∀ ss : Stack, ss ≠ [] → ¬ SharesMeet c.p0 c.p45 c.p90 c.p135 c.p45_135 ((ss.count 0 : ℚ) / ss.length)
      ((ss.count 45 : ℚ) / ss.length) ((ss.count 90 : ℚ) / ss.length) ((ss.count (-45) : ℚ) / ss.length) := by
  obtain ⟨c, hc, ht⟩ := ok_of_test (mkLaylaConstraints { rule10 := true, percent45 := 60, percent135 := 60 })
    (fun c => decide (c.rule10 = true ∧ c.p45_135 = 6 / 5 ∧ c.pTot = 6 / 5)) (by decide +kernel)
  simp only [decide_eq_true_eq] at ht
  refine ⟨_, c, hc, ht.1, ht.2.1, fun ss hne hm => ?_⟩
  have h1 := (C76_percent_tot _ c hc).1 _ _ _ _ hm
  have h2 := shares_le_one ss hne
  rw [ht.2.2] at h1
  linarith

/-- C76, violation: a set of orientations without angled plies ([0, 90]) makes the constructor fail with an index
error although it is within all the documented limits. -/
theorem C76_no_angled_ply_violation (a : LaylaConsArgs) (ha : ∀ x ∈ a.setOfAngles, x = 0 ∨ x = 90) :
    ∃ e, mkLaylaConstraints a = .error e := by
  cases h : mkLaylaConstraints a with
  | error e => exact ⟨e, rfl⟩
  | ok c =>
    obtain ⟨b, p, hb, _, _⟩ := (C76_agrees a c).1 h
    obtain ⟨_, g2, _, _, _, _, ⟨x, hx, h0, h9⟩, _⟩ := C14_angles _ b hb
    have := ha x ((g2 x).1 hx)
    omega

/-- C76, violation: the contiguity limit is only compared with 1: 0 and limits above 6 are accepted, and then the
pruning of the next ply of a symmetric laminate fails. -/
theorem C76_n_contig_violation (k : Nat) (hk : k = 0 ∨ 6 < k) : ∃ (a : LaylaConsArgs) (c : Cons),
    mkLaylaConstraints a = .ok c ∧ c.contig = true ∧ c.nContig = k ∧
    ∃ m, laylaPruning [0, 45] (laylaSimpBot c []) [0] [] [] 1 20 c 0 = .error (.exc m) := by
  obtain ⟨c0, hc0, _⟩ := ok_of_test (mkLaylaConstraints { sym := true, contig := true, nContig := 2 })
    (fun _ => true) (by decide +kernel)
  obtain ⟨b, p, hb, hp, e⟩ := (C76_agrees _ c0).1 hc0
  have hlay : mkLaylaConstraints { sym := true, contig := true, nContig := k } =
      .ok { c0 with nContig := k, nContigC := k } := by
    unfold mkLaylaConstraints at hc0 ⊢
    have hk1 : ¬ k = 1 := by omega
    have e2 : laylaPercentages { sym := true, contig := true, nContig := k } =
      laylaPercentages { sym := true, contig := true, nContig := 2 } := rfl
    rw [e2]
    rw [hp] at hc0 ⊢
    simp only [bind, Except.bind, pure, Except.pure, throw, throwThe, MonadExceptOf.throw, hk1, and_false, if_false,
      Bool.false_eq_true, false_and] at hc0 ⊢
    split at hc0
    · omega
    split at hc0
    · cases hc0
    rename_i g1
    rw [if_neg g1]
    split at hc0
    · cases hc0
    rename_i g2
    rw [if_neg g2]
    split at hc0
    · cases hc0
    rename_i g3
    rw [if_neg g3]
    split at hc0
    · cases hc0
    rename_i g4
    rw [if_neg g4]
    split at hc0
    · cases hc0
    rename_i g5
    rw [if_neg g5]
    have := Except.ok.inj hc0
    rw [← this]
    simp
  refine ⟨_, _, hlay, ?_, rfl, "constraints.n_contig must be 2, 3, 4 or 5", ?_⟩
  · rw [(C76_rules _ c0 hc0).1.2.2.2.2.2.2]
  · have hs : c0.sym = true := by rw [(C76_rules _ c0 hc0).1.1]
    have hg : c0.contig = true := by rw [(C76_rules _ c0 hc0).1.2.2.2.2.2.2]
    have hd : c0.diso = false := by rw [(C76_rules _ c0 hc0).1.2.2.2.2.2.1]
    have hdt : c0.damTol = false := by rw [(C76_rules _ c0 hc0).1.2.2.2.1]
    have hbad : ¬ (k = 2 ∨ k = 3 ∨ k = 4 ∨ k = 5 ∨ k = 6) := by omega
    simp [laylaPruning, laylaRules, laylaDiso, laylaContig, keepIf, externalContig, externalContigPass, hs, hg, hd, hdt,
      hbad, laylaSimpBot, bind, Except.bind]

/-- C76: the laminate scheme is symmetric exactly when symmetry is asked for, and the scheme of the checks contains
balance exactly when balance or in-plane orthotropy is asked for. -/
theorem C76_schemes (a : LaylaConsArgs) (c : Cons) (h : mkLaylaConstraints a = .ok c) :
    ((laylaSchemes c).1 = "S" ↔ a.sym = true) ∧ ((laylaSchemes c).1 = "U" ↔ a.sym = false) ∧
    ((laylaSchemes c).2 = "SB" ↔ a.sym = true ∧ (a.bal = true ∨ a.ipo = true)) ∧
    ((laylaSchemes c).2 = "B" ↔ a.sym = false ∧ (a.bal = true ∨ a.ipo = true)) ∧
    ((laylaSchemes c).2 = "S" ↔ a.sym = true ∧ ¬ (a.bal = true ∨ a.ipo = true)) ∧
    ((laylaSchemes c).2 = "U" ↔ a.sym = false ∧ ¬ (a.bal = true ∨ a.ipo = true)) := by
  have hs := (C76_rules a c h).1.1
  have hi := (C76_rules a c h).2.1
  rw [← hi, ← hs]
  unfold laylaSchemes
  cases c.ipo <;> cases c.sym <;> decide

/-- The pruning theorems of C75 apply to the objects of LAYLA with a contiguity limit from 2 to 6. -/
theorem C76_pruning_hypotheses (a : LaylaConsArgs) (c : Cons) (h : mkLaylaConstraints a = .ok c)
    (hc : a.contig = true → 2 ≤ a.nContig ∧ a.nContig ≤ 6) :
    1 ≤ c.nContig ∧ (c.contig = true → 2 ≤ c.nContig ∧ c.nContig ≤ 6) ∧ AnglesInRange c.angles := by
  obtain ⟨g1, _, _, _, g5, g6, _⟩ := C76_rules a c h
  have e : c.contig = a.contig := g1.2.2.2.2.2.2
  obtain ⟨_, _, _, _, ha, _⟩ := C76_angles a c h
  refine ⟨?_, fun hg => ?_, fun x hx => ⟨by have := ha x hx; omega, (ha x hx).2⟩⟩
  · rcases Bool.eq_false_or_eq_true c.contig with hg | hg
    · rw [(g5 hg).1]; have := hc (e ▸ hg); omega
    · rw [(g6 hg).1]
  · rw [(g5 hg).1]; exact hc (e ▸ hg)

/-- A complete, non-trivial constraint object. -/
theorem C76_example : ∃ (a : LaylaConsArgs) (c : Cons), mkLaylaConstraints a = .ok c ∧ c.sym = true ∧ c.ipo = true ∧
    c.damTol = true ∧ c.p45 = 1 / 10 ∧ c.p135 = 1 / 10 ∧ c.p45_135 = 3 / 10 ∧ c.pTot = 1 / 2 ∧
    c.angles = [-60, -45, 0, 45, 60, 90] ∧ c.nContig = 5 ∧ laylaSchemes c = ("S", "SB") := by
  obtain ⟨c, hc, ht⟩ := ok_of_test (mkLaylaConstraints { sym := true, bal := true, damTol := true, rule10 := true, percent0 := 10, percent45 := 10, percent90 := 10, percent135 := 10, percent45_135 := 30, contig := true, nContig := 5, setOfAngles := [0, 45, 60, 90, -45, -60] })
    (fun c => decide (c.sym = true ∧ c.ipo = true ∧
    c.damTol = true ∧ c.p45 = 1 / 10 ∧ c.p135 = 1 / 10 ∧ c.p45_135 = 3 / 10 ∧ c.pTot = 1 / 2 ∧
    c.angles = [-60, -45, 0, 45, 60, 90] ∧ c.nContig = 5 ∧ laylaSchemes c = ("S", "SB"))) (by decide +kernel)
  simp only [decide_eq_true_eq] at ht
  exact ⟨_, c, hc, ht⟩

end Bella
