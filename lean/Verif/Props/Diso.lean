import Verif.Proofs.Diso
/-
Properties C01, C02, C03: disorientation checks.
-/
namespace Bella

/-- C01: for ply angles, `is_diso` answers whether the two fibre directions, taken modulo 180°,
are at most `d` degrees apart. -/
theorem C01_is_diso_iff (a b d : Int) (ha : -90 ≤ a ∧ a ≤ 90) (hb : -90 ≤ b ∧ b ≤ 90) :
    isDiso a b d = true ↔ Spec.WithinAngle d a b := isDiso_iff a b d ha hb

/-- C01: the answer depends neither on the order of the plies nor on a mirror of both angles. -/
theorem C01_is_diso_symm (a b d : Int) :
    isDiso b a d = isDiso a b d ∧ isDiso (-a) (-b) d = isDiso a b d := by
  refine ⟨isDiso_comm b a d, ?_⟩
  unfold isDiso
  congr 1
  simp only [eq_iff_iff]
  omega

/-- C01: relaxing the limit never rejects an accepted pair. -/
theorem C01_is_diso_mono (a b d e : Int) (hde : d ≤ e) (h : isDiso a b d = true) :
    isDiso a b e = true := by
  unfold isDiso at *
  split at h
  · cases h
  · split
    · omega
    · rfl

example : isDiso 90 (-60) 45 = true ∧ isDiso 90 (-45) 44 = false
    ∧ Spec.WithinAngle 45 90 (-60) := ⟨by decide, by decide, ⟨-1, by decide⟩⟩

/-- C02: without damage tolerance, `is_diso_ss` accepts exactly the laminates in which all
neighbouring plies are within the limit; it never raises. -/
theorem C02_is_diso_ss_iff (ss : Stack) (d : Int) (r n : Option Int)
    (hss : ∀ a ∈ ss, -90 ≤ a ∧ a ≤ 90) :
    (isDisoSs ss d false r n = .ok true ↔ Spec.DisoOK d ss) ∧
    (isDisoSs ss d false r n = .ok false ↔ ¬ Spec.DisoOK d ss) := by
  have key : isDisoSs ss d false r n = .ok true ↔ Spec.DisoOK d ss := by
    rw [disoOK_iff_nth]
    simp only [isDisoSs, Bool.false_eq_true, if_false, Except.ok.injEq, List.all_eq_true,
      List.mem_range]
    exact forall₂_congr fun i _ => isDiso_iff _ _ _ (InRange.nth hss i) (InRange.nth hss (i + 1))
  refine ⟨key, ?_⟩
  rw [← key]
  simp [isDisoSs]

/-- C02: under damage tolerance rules 2 and 3, `is_diso_ss` accepts exactly the laminates in which
all neighbouring plies except the two surface pairs are within the limit. -/
theorem C02_is_diso_ss_dam_tol (ss : Stack) (d : Int) (r n : Option Int)
    (hrule : r = some 2 ∨ r = some 3 ∨ n = some 2)
    (hss : ∀ a ∈ ss, -90 ≤ a ∧ a ≤ 90) :
    (isDisoSs ss d true r n = .ok true ↔ Spec.PairsWithin d ss 1 (ss.length - 2)) ∧
    (isDisoSs ss d true r n = .ok false ↔ ¬ Spec.PairsWithin d ss 1 (ss.length - 2)) := by
  have hr : (r = some 2 ∨ r = some 3) ∨ n = some 2 := by tauto
  have e : isDisoSs ss d true r n = .ok ((List.range (ss.length - 3)).all
          (fun i => isDiso (nth ss (i + 1)) (nth ss (i + 2)) d)) := by
    unfold isDisoSs
    rw [if_pos rfl, if_pos hr]
    cases (List.range (ss.length - 3)).all
          (fun i => isDiso (nth ss (i + 1)) (nth ss (i + 2)) d) <;> rfl
  have key : isDisoSs ss d true r n = .ok true ↔ Spec.PairsWithin d ss 1 (ss.length - 2) := by
    rw [pairsWithin_iff_nth, e]
    simp only [Except.ok.injEq, List.all_eq_true, List.mem_range]
    constructor
    · intro h i h1 h2 h3
      have := h (i - 1) (by omega)
      have e1 : i - 1 + 1 = i := by omega
      have e2 : i - 1 + 2 = i + 1 := by omega
      rw [e1, e2] at this
      exact (isDiso_iff _ _ _ (InRange.nth hss _) (InRange.nth hss _)).1 this
    · intro h i hi
      exact (isDiso_iff _ _ _ (InRange.nth hss _) (InRange.nth hss _)).2
        (h (i + 1) (by omega) (by omega) (by omega))
  refine ⟨key, ?_⟩
  rw [← key, e]
  simp

/-- C02: the verdict is the same for the laminate turned upside down, whatever the options. -/
theorem C02_is_diso_ss_reverse (ss : Stack) (d : Int) (dt : Bool) (r n : Option Int) :
    isDisoSs ss.reverse d dt r n = isDisoSs ss d dt r n := by
  have h0 : (List.range (ss.length - 1)).all
        (fun i => isDiso (nth ss.reverse i) (nth ss.reverse (i + 1)) d) =
      (List.range (ss.length - 1)).all (fun i => isDiso (nth ss i) (nth ss (i + 1)) d) := by
    rw [Bool.eq_iff_iff]
    simp only [List.all_eq_true, List.mem_range]
    constructor <;> intro h i hi
    · have := h (ss.length - 1 - (i + 1)) (by omega)
      rw [nth_reverse _ _ (by omega), nth_reverse _ _ (by omega), isDiso_comm] at this
      have e1 : ss.length - 1 - (ss.length - 1 - (i + 1) + 1) = i := by omega
      have e2 : ss.length - 1 - (ss.length - 1 - (i + 1)) = i + 1 := by omega
      rwa [e1, e2] at this
    · have := h (ss.length - 1 - (i + 1)) (by omega)
      rw [nth_reverse _ _ (by omega), nth_reverse _ _ (by omega), isDiso_comm]
      have e1 : ss.length - 1 - (i + 1) + 1 = ss.length - 1 - i := by omega
      rwa [e1] at this
  have h1 : (List.range (ss.length - 3)).all
        (fun i => isDiso (nth ss.reverse (i + 1)) (nth ss.reverse (i + 2)) d) =
      (List.range (ss.length - 3)).all
        (fun i => isDiso (nth ss (i + 1)) (nth ss (i + 2)) d) := by
    rw [Bool.eq_iff_iff]
    simp only [List.all_eq_true, List.mem_range]
    constructor <;> intro h i hi
    · have := h (ss.length - 4 - i) (by omega)
      rw [nth_reverse _ _ (by omega), nth_reverse _ _ (by omega), isDiso_comm] at this
      have e1 : ss.length - 1 - (ss.length - 4 - i + 2) = i + 1 := by omega
      have e2 : ss.length - 1 - (ss.length - 4 - i + 1) = i + 2 := by omega
      rwa [e1, e2] at this
    · have := h (ss.length - 4 - i) (by omega)
      rw [nth_reverse _ _ (by omega), nth_reverse _ _ (by omega), isDiso_comm]
      have e1 : ss.length - 1 - (i + 2) = ss.length - 4 - i + 1 := by omega
      have e2 : ss.length - 1 - (i + 1) = ss.length - 4 - i + 2 := by omega
      rwa [e1, e2]
  unfold isDisoSs
  simp only [List.length_reverse, h0, h1]

/-- C02 (violation found): with damage tolerance rule 1, where no ply pair is exempted,
`is_diso_ss` accepts every laminate, hence also laminates that break the rule. -/
theorem C02_rule1_unchecked :
    (∀ (ss : Stack) (d : Int), isDisoSs ss d true (some 1) none = .ok true) ∧
    ∃ ss : Stack, (∀ a ∈ ss, -90 ≤ a ∧ a ≤ 90) ∧ isDisoSs ss 45 true (some 1) none = .ok true ∧
      ¬ Spec.DisoOK 45 ss := by
  refine ⟨fun ss d => by simp [isDisoSs], [45, 0, 90, 45], by decide, by decide, ?_⟩
  rw [← (C02_is_diso_ss_iff [45, 0, 90, 45] 45 none none (by decide)).1]
  decide

example : isDisoSs [45, 0, 45, 90, -45, 0] 45 false none none = .ok true ∧
    isDisoSs [45, -45, -45, 90, 0] 45 true (some 2) none = .ok true ∧
    isDisoSs [45, -45, 45, 90, 0] 45 true (some 3) none = .ok false := by decide

/-- C03: the reported number of violations is the number of neighbouring pairs beyond the limit,
the plies on both surfaces being removed first under the two-ply damage tolerance rules. -/
theorem C03_penalty_exact (ss : Stack) (d : Int) (dt : Bool) (attr : DamTolAttr)
    (hss : ∀ a ∈ ss, -90 ≤ a ∧ a ≤ 90)
    (hne : (if dt = true ∧ attr.twoPlies = true then 3 else 1) ≤ ss.length) :
    calcNPenaltyDisoSs ss d dt attr = .ok (Spec.disoViolations d
      (if dt = true ∧ attr.twoPlies = true then (ss.drop 1).dropLast else ss)) := by
  have hin : ∀ tt : Stack, tt ≠ [] → InRange tt →
      (violaDisoRow tt d) = .ok ((List.range (tt.length - 1)).map
        (fun i => ! isDiso (nth tt i) (nth tt (i + 1)) d)) ∧
      ((List.range (tt.length - 1)).countP
        (fun i => ! isDiso (nth tt i) (nth tt (i + 1)) d)) = Spec.disoViolations d tt := by
    intro tt hne hr
    constructor
    · unfold violaDisoRow
      rw [if_neg (by simpa using hne)]
    · rw [disoViolations_eq]
      apply List.countP_congr
      intro i hi
      simp [← isDiso_iff _ _ _ (InRange.nth hr i) (InRange.nth hr (i + 1))]
  have e : trimDamTol ss dt attr =
      if dt = true ∧ attr.twoPlies = true then (ss.drop 1).dropLast else ss := by
    unfold trimDamTol trimEnds
    cases dt <;> cases attr.twoPlies <;> simp
  unfold calcNPenaltyDisoSs
  rw [e]
  generalize htt : (if dt = true ∧ attr.twoPlies = true then (ss.drop 1).dropLast else ss) = tt
  have h1 : tt ≠ [] := by
    intro h
    rw [h] at htt
    split at hne <;> rename_i hc
    · rw [if_pos hc] at htt
      have := congrArg List.length htt
      simp at this; omega
    · rw [if_neg hc] at htt
      rw [htt] at hne; simp at hne
  have h2 : InRange tt := by
    intro a ha
    apply hss
    rw [← htt] at ha
    split at ha
    · exact List.mem_of_mem_drop (List.mem_of_mem_dropLast ha)
    · exact ha
  obtain ⟨h3, h4⟩ := hin tt h1 h2
  rw [h3, ← h4, ← countTrue_map]
  rfl

/-- C03: the violation count is zero exactly for the laminates accepted by `is_diso_ss`
(without damage tolerance, and with the two-ply damage tolerance rules). -/
theorem C03_penalty_zero_iff (ss : Stack) (d : Int) (attr : DamTolAttr)
    (hss : ∀ a ∈ ss, -90 ≤ a ∧ a ≤ 90) :
    (1 ≤ ss.length →
      (calcNPenaltyDisoSs ss d false attr = .ok 0 ↔ Spec.DisoOK d ss)) ∧
    (3 ≤ ss.length → attr.twoPlies = true →
      (calcNPenaltyDisoSs ss d true attr = .ok 0 ↔ Spec.PairsWithin d ss 1 (ss.length - 2))) := by
  constructor
  · intro hl
    rw [C03_penalty_exact ss d false attr hss (by simpa using hl)]
    simp only [Bool.false_eq_true, false_and, if_false, Except.ok.injEq]
    exact disoViolations_eq_zero d ss
  · intro hl ht
    rw [C03_penalty_exact ss d true attr hss (by simpa [ht] using hl)]
    simp only [ht, and_self, if_true, Except.ok.injEq]
    rw [disoViolations_eq_zero, disoOK_iff_nth, pairsWithin_iff_nth]
    have hn : ∀ i, i < ss.length - 2 → nth ((ss.drop 1).dropLast) i = nth ss (i + 1) := by
      intro i hi
      rw [nth_eq_getElem _ _ (by simp; omega), nth_eq_getElem _ _ (by omega),
        List.getElem_dropLast, List.getElem_drop]
      congr 1; omega
    simp only [List.length_dropLast, List.length_drop]
    constructor
    · intro h i h1 h2 h3
      have := h (i - 1) (by omega)
      rw [hn _ (by omega), hn _ (by omega)] at this
      have e : i - 1 + 1 = i := by omega
      rwa [e] at this
    · intro h i hi
      rw [hn _ (by omega), hn _ (by omega)]
      exact h (i + 1) (by omega) (by omega) (by omega)

/-- C03: the count never exceeds the number of neighbouring pairs. -/
theorem C03_penalty_le (ss : Stack) (d : Int) (attr : DamTolAttr) (dt : Bool) (k : Nat)
    (h : calcNPenaltyDisoSs ss d dt attr = .ok k) : k ≤ ss.length - 1 := by
  unfold calcNPenaltyDisoSs violaDisoRow at h
  split at h
  · cases h
  · simp only [bind, Except.bind, pure, Except.pure, Except.ok.injEq] at h
    rw [countTrue_map] at h
    have h1 := List.countP_le_length (l := List.range ((trimDamTol ss dt attr).length - 1))
      (p := fun i => ! isDiso (nth (trimDamTol ss dt attr) i) (nth (trimDamTol ss dt attr) (i + 1)) d)
    have h2 : (trimDamTol ss dt attr).length ≤ ss.length := by
      unfold trimDamTol trimEnds
      split
      · split
        · simp; omega
        · exact le_refl _
      · exact le_refl _
    simp only [List.length_range] at h1
    omega

/-- C03: the multi-panel count is the list of the counts of the panels. -/
theorem C03_penalty_mp (sss : List Stack) (d : Int) (dt : Bool) (attr : DamTolAttr)
    (ks : List Nat) :
    calcNumberViolationsDisoMp sss d dt attr = .ok ks ↔
      List.Forall₂ (fun ss k => calcNPenaltyDisoSs ss d dt attr = .ok k) sss ks := by
  unfold calcNumberViolationsDisoMp
  induction sss generalizing ks with
  | nil => cases ks <;> simp [List.mapM_nil, pure, Except.pure]
  | cons ss sss ih =>
    rw [List.mapM_cons]
    cases h : calcNPenaltyDisoSs ss d dt attr with
    | error e =>
      simp only [bind, Except.bind]
      constructor
      · intro h2; cases h2
      · intro h2
        cases h2 with
        | cons h3 _ => rw [h] at h3; cases h3
    | ok k =>
      simp only [bind, Except.bind, pure, Except.pure]
      cases h4 : List.mapM (fun el => calcNPenaltyDisoSs el d dt attr) sss with
      | error e =>
        constructor
        · intro h2; cases h2
        · intro h2
          cases h2 with
          | cons h3 h5 => rw [(ih _).2 h5] at h4; cases h4
      | ok ks' =>
        simp only [Except.ok.injEq]
        constructor
        · rintro rfl
          exact .cons h ((ih _).1 h4)
        · intro h2
          cases h2 with
          | cons h3 h5 =>
            rw [h] at h3; cases h3
            rw [(ih _).2 h5] at h4; cases h4; rfl

example : calcNPenaltyDisoSs [45, -45, -45, 30, 90, 0] 45 true (.rule 2) = .ok 2 ∧
    calcNPenaltyDisoSs [45, -45, -45, 30, 90, 0] 45 false (.rule 2) = .ok 4 := by decide

end Bella
