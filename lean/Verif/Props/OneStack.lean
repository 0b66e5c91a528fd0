import Verif.Props.TenPercent
import Verif.Props.Diso
import Verif.Props.Contig
import Verif.Props.Spacing
/-
Property C11: rule checkers of one_stack.py.
-/
namespace Bella

/-- the damage tolerance condition of a rule number -/
def DamTolSpec (r : Int) (ss : Stack) : Prop :=
  (r = 1 ∧ Spec.DamTol1 ss) ∨ (r = 2 ∧ Spec.DamTol2 ss) ∨ (r = 3 ∧ Spec.DamTol3 ss)

theorem firstBroken_cons_of {p : Prop} {m : String} {t : List (Prop × String)} (h : p) :
    Spec.firstBroken ((p, m) :: t) = Spec.firstBroken t := by
  rw [Spec.firstBroken, if_pos h]

theorem firstBroken_cons_not {p : Prop} {m : String} {t : List (Prop × String)} (h : ¬ p) :
    Spec.firstBroken ((p, m) :: t) = some m := by
  rw [Spec.firstBroken, if_neg h]

/-- one rule of a checker against one line of the specification -/
theorem requireRule_step {en : Bool} {t : Py Bool} {m : String} {P : Prop} {K : Py Unit}
    {L : List (Prop × String)}
    (h1 : en = true → ∃ b, t = .ok b ∧ (b = true ↔ P)) (h0 : en = false → P)
    (hK : K = match Spec.firstBroken L with
      | none => .ok ()
      | some m => .error (.exc m)) :
    (do requireRule en t m; K) = match Spec.firstBroken ((P, m) :: L) with
      | none => .ok ()
      | some m => .error (.exc m) := by
  cases en with
  | false => rw [firstBroken_cons_of (h0 rfl), ← hK]; rfl
  | true =>
    obtain ⟨b, rfl, hb⟩ := h1 rfl
    cases b with
    | true => rw [firstBroken_cons_of (hb.1 rfl), ← hK]; rfl
    | false => rw [firstBroken_cons_not (fun h => by simpa using hb.2 h)]; rfl

/-- the last rule of a checker -/
theorem requireRule_last {en : Bool} {t : Py Bool} {m : String} {P : Prop}
    (h1 : en = true → ∃ b, t = .ok b ∧ (b = true ↔ P)) (h0 : en = false → P) :
    requireRule en t m = match Spec.firstBroken [(P, m)] with
      | none => .ok ()
      | some m => .error (.exc m) := by
  have := requireRule_step (m := m) h1 h0 (K := .ok ()) (L := []) rfl
  rw [← this]
  cases requireRule en t m <;> rfl

/-- C11: for a laminate of at least two plies and a constraint object that can be built (with
`n_contig` in 2..6 if contiguity is on), `check_lay_up_rules` returns normally exactly when all the enabled rules hold, and raises
the message of the first broken rule otherwise.  With damage tolerance rule 1 the disorientation rule is
not tested. -/
theorem C11_check_lay_up_rules (a : ConsArgs) (c : Cons) (hc : mkConstraints a = .ok c)
    (hcontig : c.contig = true → 2 ≤ c.nContig ∧ c.nContig ≤ 6)
    (ss : Stack) (hlen : 2 ≤ ss.length) (hss : ∀ x ∈ ss, x ∈ c.angles)
    (ipoOk : Stack → Bool) (noIpo noBal : Bool) (nPlies : Option Nat) :
    checkLayUpRules c ss ipoOk noIpo noBal false false nPlies =
      match Spec.firstBroken [
        (∀ n, nPlies = some n → ss.length = n, "Wrong number of plies"),
        (c.damTol = true → (c.damTolAttr = .rule 1 ∧ Spec.DamTol1 ss) ∨
          (c.damTolAttr = .rule 2 ∧ Spec.DamTol2 ss) ∨ (c.damTolAttr = .rule 3 ∧ Spec.DamTol3 ss),
          "Damage tolerance constraint not satisfied"),
        (c.bal = true → noBal = false → Spec.Balanced ss, "Balance constraint not satisfied"),
        (c.ipo = true → noIpo = false → ipoOk ss = true,
          "In plane orthotropy constraint not satisfied"),
        (c.diso = true → ¬ (c.damTol = true ∧ c.damTolAttr = .rule 1) →
          Spec.PairsWithin c.deltaAngle ss (if c.damTol then 1 else 0)
          (if c.damTol then ss.length - 2 else ss.length), "Disorientation constraint not satisfied"),
        (c.contig = true → Spec.ContigOK c.nContig ss, "Contiguity constraint not satisfied"),
        (c.rule10 = true → Spec.MeetsShares c.shares (1 / 10 ^ 15) (ss.count 0) (ss.count 90)
          (ss.count 45) (ss.count (-45)) ss.length, "10% rule not satisfied")] with
      | none => .ok ()
      | some m => .error (.exc m) := by
  obtain ⟨_, _, _, _, hr, _⟩ := C14_angles a c hc
  obtain ⟨hdt, _⟩ := C14_rules a c hc
  have hrange : ∀ x ∈ ss, -90 ≤ x ∧ x ≤ 90 := fun x hx => by have := hr x (hss x hx); omega
  have hne : ss ≠ [] := by rintro rfl; simp at hlen
  -- the value of each test
  have t1 : c.damTol = true → ∃ b, isDamTol ss c.damTol c.damTolAttr = .ok b ∧
      (b = true ↔ (c.damTolAttr = .rule 1 ∧ Spec.DamTol1 ss) ∨
          (c.damTolAttr = .rule 2 ∧ Spec.DamTol2 ss) ∨ (c.damTolAttr = .rule 3 ∧ Spec.DamTol3 ss)) := by
    intro hd
    obtain ⟨i1, i2, i3, _⟩ := C07_is_dam_tol_iff ss
    rw [hd]
    rcases (hdt hd).2 with ⟨e, _⟩ | ⟨e, _⟩ | ⟨e, _⟩ <;> rw [e]
    · obtain ⟨b, hb⟩ := C07_is_dam_tol_total ss hlen 1 (by simp)
      refine ⟨b, hb, ?_⟩
      rw [hb, Except.ok.injEq] at i1
      simp [i1]
    · obtain ⟨b, hb⟩ := C07_is_dam_tol_total ss hlen 2 (by simp)
      refine ⟨b, hb, ?_⟩
      rw [hb, Except.ok.injEq] at i2
      simp [i2]
    · obtain ⟨b, hb⟩ := C07_is_dam_tol_total ss hlen 3 (by simp)
      refine ⟨b, hb, ?_⟩
      rw [hb, Except.ok.injEq] at i3
      simp [i3]
  have t2 : isBalanced ss = true ↔ Spec.Balanced ss := C06_is_balanced_iff ss
  have t3 : c.diso = true → ∃ b, (match c.damTolAttr with
      | .rule r => isDisoSs ss c.deltaAngle c.damTol (some r) none
      | .nPlies k => isDisoSs ss c.deltaAngle c.damTol (some k) none) = .ok b ∧
      (b = true ↔ (¬ (c.damTol = true ∧ c.damTolAttr = .rule 1) →
        Spec.PairsWithin c.deltaAngle ss (if c.damTol then 1 else 0)
          (if c.damTol then ss.length - 2 else ss.length))) := by
    intro hd
    cases hdam : c.damTol with
    | false =>
      have e0 : Spec.PairsWithin c.deltaAngle ss 0 ss.length ↔ Spec.DisoOK c.deltaAngle ss := by
        rw [pairsWithin_iff_nth, disoOK_iff_nth]
        constructor
        · intro h i hi; exact h i (by omega) (by omega) hi
        · intro h i _ _ hi; exact h i hi
      have : ∀ r, ∃ b, isDisoSs ss c.deltaAngle false (some r) none = .ok b ∧
          (b = true ↔ Spec.PairsWithin c.deltaAngle ss 0 ss.length) := by
        intro r
        have h := C02_is_diso_ss_iff ss c.deltaAngle (some r) none hrange
        by_cases hh : Spec.DisoOK c.deltaAngle ss
        · exact ⟨true, h.1.2 hh, by rw [e0]; simp [hh]⟩
        · exact ⟨false, h.2.2 hh, by rw [e0]; simp [hh]⟩
      simp only [Bool.false_eq_true, if_false, false_and, not_false_eq_true, forall_const]
      split
      · exact this _
      · exact this _
    | true =>
      simp only [if_true, true_and]
      have : ∀ r : Int, r = 2 ∨ r = 3 → ∃ b, isDisoSs ss c.deltaAngle true (some r) none = .ok b ∧
          (b = true ↔ Spec.PairsWithin c.deltaAngle ss 1 (ss.length - 2)) := by
        intro r hr
        have h := C02_is_diso_ss_dam_tol ss c.deltaAngle (some r) none (by
          rcases hr with rfl | rfl <;> simp) hrange
        by_cases hh : Spec.PairsWithin c.deltaAngle ss 1 (ss.length - 2)
        · exact ⟨true, h.1.2 hh, by simp [hh]⟩
        · exact ⟨false, h.2.2 hh, by simp [hh]⟩
      rcases (hdt hdam).2 with ⟨e, _⟩ | ⟨e, _⟩ | ⟨e, _⟩
      · rw [e]
        exact ⟨true, by simp [isDisoSs], by simp⟩
      · rw [e]
        obtain ⟨b, hb, hi⟩ := this 2 (Or.inl rfl)
        exact ⟨b, hb, by rw [hi]; exact ⟨fun h _ => h, fun h => h (by simp)⟩⟩
      · rw [e]
        obtain ⟨b, hb, hi⟩ := this 3 (Or.inr rfl)
        exact ⟨b, hb, by rw [hi]; exact ⟨fun h _ => h, fun h => h (by simp)⟩⟩
  have t4 : c.contig = true → ∃ b, isContig ss c.nContig = .ok b ∧
      (b = true ↔ Spec.ContigOK c.nContig ss) := by
    intro hcg
    obtain ⟨b2, b6⟩ := hcontig hcg
    obtain ⟨b, hb⟩ := isContig_total ss c.nContig b2 b6
    refine ⟨b, hb, ?_⟩
    have := isContig_ok_true ss c.nContig b2 b6
    rw [hb, Except.ok.injEq] at this
    exact this
  have t5 : ∃ b, isTenPercentStack c ss none false false = .ok b ∧
      (b = true ↔ Spec.MeetsShares c.shares (1 / 10 ^ 15) (ss.count 0) (ss.count 90)
          (ss.count 45) (ss.count (-45)) ss.length) := by
    have h := C08_stack_iff c ss hne
    by_cases hh : Spec.MeetsShares c.shares (1 / 10 ^ 15) (ss.count 0) (ss.count 90)
          (ss.count 45) (ss.count (-45)) ss.length
    · exact ⟨true, h.1.2 hh, iff_of_true rfl hh⟩
    · exact ⟨false, h.2.2 hh, iff_of_false (by simp) hh⟩
  unfold checkLayUpRules
  refine requireRule_step ?_ ?_ ?_
  · intro h
    cases nPlies with
    | none => simp at h
    | some n =>
      refine ⟨_, rfl, ?_⟩
      simp only [beq_iff_eq, Option.some.injEq]
      constructor
      · rintro h m rfl; exact h.symm
      · intro h; exact (h n rfl).symm
  · intro h n hn; rw [hn] at h; simp at h
  refine requireRule_step (fun h => ?_) (fun h => by simp [h]) ?_
  · obtain ⟨b, hb, hbi⟩ := t1 h
    exact ⟨b, hb, by rw [hbi]; exact ⟨fun h _ => h, fun k => k h⟩⟩
  refine requireRule_step (fun h => ⟨_, rfl, ?_⟩) (fun h => ?_) ?_
  · simp only [Bool.and_eq_true, Bool.not_eq_true'] at h
    rw [t2]; exact ⟨fun k _ _ => k, fun k => k h.2 h.1⟩
  · intro h1 h2; simp [h1, h2] at h
  refine requireRule_step (fun h => ⟨_, rfl, ?_⟩) (fun h => ?_) ?_
  · simp only [Bool.and_eq_true, Bool.not_eq_true'] at h
    exact ⟨fun k _ _ => k, fun k => k h.2 h.1⟩
  · intro h1 h2; simp [h1, h2] at h
  refine requireRule_step (fun h => ?_) (fun h => by simp [h]) ?_
  · obtain ⟨b, hb, hbi⟩ := t3 h
    exact ⟨b, hb, by rw [hbi]; exact ⟨fun h _ => h, fun k => k h⟩⟩
  refine requireRule_step (fun h => ?_) (fun h => by simp [h]) ?_
  · obtain ⟨b, hb, hbi⟩ := t4 h
    exact ⟨b, hb, by rw [hbi]; exact ⟨fun h _ => h, fun k => k h⟩⟩
  refine requireRule_last (fun h => ?_) (fun h => by simp [h])
  obtain ⟨b, hb, hbi⟩ := t5
  exact ⟨b, hb, by rw [hbi]; exact ⟨fun h _ => h, fun k => k h⟩⟩

/-- C11, violation: with damage tolerance rule 1, `check_lay_up_rules` performs no disorientation
test at all (`is_diso_ss` only tests under rules 2 and 3): a laminate whose interior plies break
the disorientation guideline is accepted. -/
theorem C11_rule1_disorientation_unchecked :
    ∃ (a : ConsArgs) (c : Cons) (ss : Stack) (ipoOk : Stack → Bool), mkConstraints a = .ok c ∧
      c.diso = true ∧ c.damTol = true ∧ c.damTolAttr = .rule 1 ∧ (∀ x ∈ ss, x ∈ c.angles) ∧
      ¬ Spec.PairsWithin c.deltaAngle ss 1 (ss.length - 2) ∧
      checkLayUpRules c ss ipoOk false false false false none = .ok () := by
  obtain ⟨c, hc, ht⟩ := ok_of_test
    (mkConstraints { damTol := true, damTolRule := 1, diso := true, deltaAngle := 45 })
    (fun c => decide (c.diso = true ∧ c.damTol = true ∧ c.damTolAttr = .rule 1 ∧
      c.angles = [-45, 0, 45, 90] ∧ c.deltaAngle = 45 ∧
      checkLayUpRules c [45, 0, 90, 45] (fun _ => true) false false false false none = .ok ()))
    (by decide +kernel)
  simp only [decide_eq_true_eq] at ht
  obtain ⟨h1, h2, h3, h4, h5, h6⟩ := ht
  refine ⟨_, c, [45, 0, 90, 45], fun _ => true, hc, h1, h2, h3, ?_, ?_, h6⟩
  · rw [h4]; decide
  · rw [h5]
    intro h
    obtain ⟨k, hk⟩ := h 1 0 90 (by decide) (by decide) rfl rfl
    rw [abs_le] at hk
    omega

/-- C11: the covering and ply drop spacing checker raises exactly when a panel drops its first or
last ply or a positively weighted boundary has two ply drops that are too close. -/
theorem C11_check_ply_drop_rules (c : Cons) (sst : List Stack)
    (boundaries : List (Nat × Nat × ℚ)) (p : ℚ)
    (hp : calcPenaltySpacing sst boundaries c.minDrop = .ok p) :
    checkPlyDropRules c sst boundaries =
      match Spec.firstBroken [
        (c.covering = true → ∀ row ∈ sst, ¬ [-1] <+: row ∧ ¬ [-1] <:+ row,
          "Covering constraint not satisfied"),
        (c.pdlSpacing = true → p = 0, "Ply drop spacing rule not satisfied")] with
      | none => .ok ()
      | some m => .error (.exc m) := by
  unfold checkPlyDropRules
  refine requireRule_step (fun h => ⟨_, rfl, ?_⟩) (fun h => by simp [h]) ?_
  · simp only [h, forall_const, coveringTest, List.all_eq_true, Bool.and_eq_true, bne_iff_ne, ne_eq]
    refine forall₂_congr fun row _ => ?_
    have e1 : row.head? = some (-1) ↔ [-1] <+: row := by
      cases row <;> simp [List.cons_prefix_cons, eq_comm]
    have e2 : row.getLast? = some (-1) ↔ [-1] <:+ row := by
      rw [List.getLast?_eq_some_iff]
      constructor
      · rintro ⟨ys, rfl⟩; exact ⟨ys, rfl⟩
      · rintro ⟨ys, rfl⟩; exact ⟨ys, rfl⟩
    rw [e1, e2]
  refine requireRule_last (fun h => ?_) (fun h => by simp [h])
  rw [hp]
  exact ⟨_, rfl, by simp [h]⟩

/-- C11, violation: with `n_covering = 2` the second and last-but-one plies may be dropped and the
checker still accepts the table. -/
theorem C11_covering_two_unchecked :
    ∃ (a : ConsArgs) (c : Cons) (sst : List Stack), mkConstraints a = .ok c ∧
      c.covering = true ∧ c.nCovering = 2 ∧
      (∃ row ∈ sst, row[1]? = some (-1) ∧ row.reverse[1]? = some (-1)) ∧
      checkPlyDropRules c sst [] = .ok () := by
  obtain ⟨c, hc, ht⟩ := ok_of_test (mkConstraints { covering := true, nCovering := 2 })
    (fun c => decide (c.covering = true ∧ c.nCovering = 2 ∧
      checkPlyDropRules c [[45, 0, 90, 90, 0, 45], [45, -1, 90, 90, -1, 45]] [] = .ok ()))
    (by decide +kernel)
  simp only [decide_eq_true_eq] at ht
  exact ⟨_, c, _, hc, ht.1, ht.2.1, ⟨[45, -1, 90, 90, -1, 45], by simp, rfl, rfl⟩, ht.2.2⟩

/-- non-vacuity of `C11_check_lay_up_rules`: a constraint object with all rules on and a laminate
that meets them, one that breaks the contiguity rule first. -/
example : ∃ (a : ConsArgs) (c : Cons), mkConstraints a = .ok c ∧
    (c.contig = true ∧ 2 ≤ c.nContig ∧ c.nContig ≤ 6) ∧
    (c.diso = true ∧ c.damTol = true ∧ c.damTolAttr = .rule 2) ∧
    checkLayUpRules c [45, -45, 0, 45, 90, 90, 45, 0, -45, 45, -45, -45] (fun _ => true)
      false false false false (some 12) = .error (.exc "Damage tolerance constraint not satisfied") ∧
    checkLayUpRules c [45, -45, 0, 45, 90, -45, -45, 90, 45, 0, -45, 45] (fun _ => true)
      false false false false (some 12) = .ok () ∧
    checkLayUpRules c [45, -45, 0, 45, 90, -45, -45, 90, 45, 0, -45, 45] (fun _ => true)
      false false false false (some 13) = .error (.exc "Wrong number of plies") := by
  obtain ⟨c, hc, ht⟩ := ok_of_test
    (mkConstraints
      { sym := true, bal := true, damTol := true, damTolRule := 2, diso := true,
        contig := true, nContig := 2, rule10 := true, percent0 := 10, percent90 := 10,
        percent45 := 10, percent135 := 10 })
    (fun c => decide ((c.contig = true ∧ 2 ≤ c.nContig ∧ c.nContig ≤ 6) ∧
    (c.diso = true ∧ c.damTol = true ∧ c.damTolAttr = .rule 2) ∧
    checkLayUpRules c [45, -45, 0, 45, 90, 90, 45, 0, -45, 45, -45, -45] (fun _ => true)
      false false false false (some 12) = .error (.exc "Damage tolerance constraint not satisfied") ∧
    checkLayUpRules c [45, -45, 0, 45, 90, -45, -45, 90, 45, 0, -45, 45] (fun _ => true)
      false false false false (some 12) = .ok () ∧
    checkLayUpRules c [45, -45, 0, 45, 90, -45, -45, 90, 45, 0, -45, 45] (fun _ => true)
      false false false false (some 13) = .error (.exc "Wrong number of plies")))
    (by decide +kernel)
  simp only [decide_eq_true_eq] at ht
  exact ⟨_, c, hc, ht⟩

end Bella
