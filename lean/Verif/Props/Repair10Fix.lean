import Verif.Props.Repair10
/-
C25 (the minimum counts fit), C26: compliant laminates are left unchanged.
-/
namespace Bella

/-- `q` is a sub-multiset of `V` with room for `m` more ±45 plies. -/
theorem room (q V : List Int) (m : Int) (h : ∀ x, q.count x ≤ V.count x)
    (hm : m ≤ ((V.count 45 : Int) - q.count 45) + ((V.count (-45) : Int) - q.count (-45))) :
    (q.length : Int) + m ≤ V.length := by
  have h1 : List.Subperm (q ++ List.replicate (V.count 45 - q.count 45) 45 ++
      List.replicate (V.count (-45) - q.count (-45)) (-45)) V := by
    rw [List.subperm_ext_iff]
    intro x _
    rw [List.count_append, List.count_append]
    have := h x
    by_cases h45 : x = 45
    · subst h45
      rw [List.count_replicate_self, count_replicate_ne _ _ _ (by decide)]
      omega
    · by_cases h135 : x = -45
      · subst h135
        rw [List.count_replicate_self, count_replicate_ne _ _ _ (by decide)]
        omega
      · rw [count_replicate_ne _ _ _ (Ne.symm h45), count_replicate_ne _ _ _ (Ne.symm h135)]
        omega
  have h2 := h1.length_le
  simp only [List.length_append, List.length_replicate] at h2
  have := h 45
  have := h (-45)
  omega

theorem queueLoop_unchanged (ipo : Bool) (V : List Int) : ∀ (q : List Int) (m : Int) (k : Nat),
    (∀ x, q.count x ≤ V.count x) → 0 ≤ m → (ipo = true → m = 0) →
    m ≤ ((V.count 45 : Int) - q.count 45) + ((V.count (-45) : Int) - q.count (-45)) →
    (ipo = true → ∀ x, x ≠ 0 → x ≠ 90 → x ≠ -90 → V.count x + q.count (-x) = V.count (-x) + q.count x) →
    (-90 ∉ V) → queueLoop ipo V q m k = ([], 0, none) := by
  induction V with
  | nil =>
    intro q m k h1 h2 _ h4 _ _
    have hq : q = [] := by
      rw [List.eq_nil_iff_forall_not_mem]
      intro x hx
      have e1 := h1 x
      have e2 := List.count_pos_iff.mpr hx
      rw [List.count_nil] at e1
      omega
    subst hq
    have : m = 0 := by simp at h4; omega
    subst this
    rfl
  | cons a rest ih =>
    intro q m k h1 h2 h3 h4 h5 h6
    have hc : ∀ x, (a :: rest).count x = rest.count x + if a = x then 1 else 0 := by
      intro x; rw [List.count_cons]; simp only [beq_iff_eq]
    simp only [hc] at h1 h4 h5
    have i1 : ∀ x, (queueStep ipo a q).count x ≤ rest.count x := by
      intro x
      by_cases hmem : a ∈ q
      · have := count_queueStep_mem ipo a q hmem x
        have := h1 x
        omega
      · unfold queueStep
        rw [if_neg hmem]
        have hqa : q.count a = 0 := List.count_eq_zero.mpr hmem
        by_cases hi : ipo = true ∧ ¬ (a = 0 ∨ a = 90)
        · rw [if_pos hi, List.count_append, List.count_singleton]
          simp only [beq_iff_eq]
          have ha90 : a ≠ -90 := by rintro rfl; simp at h6
          have g := h5 hi.1 (-a) (by omega) (by omega) (by omega)
          rw [neg_neg, hqa] at g
          have := h1 x
          have g1 : a ≠ -a := by omega
          simp only [if_neg g1, if_true] at g
          split_ifs with e1
          · subst e1; omega
          · by_cases hax : a = x
            · subst hax; omega
            · simp only [if_neg hax] at this; omega
        · rw [if_neg hi]
          have := h1 x
          by_cases hax : a = x
          · subst hax; omega
          · simp only [if_neg hax] at this; omega
    have i2 : 0 ≤ missingStep ipo a q m := by
      unfold missingStep; split_ifs <;> omega
    have i3 : ipo = true → missingStep ipo a q m = 0 := by
      intro hi
      unfold missingStep
      simp [hi, h3 hi]
    have i4 : missingStep ipo a q m ≤ ((rest.count 45 : Int) - (queueStep ipo a q).count 45) +
        ((rest.count (-45) : Int) - (queueStep ipo a q).count (-45)) := by
      have j45 := i1 45
      have j135 := i1 (-45)
      by_cases hi : ipo = true
      · rw [i3 hi]; omega
      · simp only [Bool.not_eq_true] at hi
        by_cases hmem : a ∈ q
        · have g1 := count_queueStep_mem ipo a q hmem 45
          have g2 := count_queueStep_mem ipo a q hmem (-45)
          unfold missingStep
          rw [if_pos hmem]
          push_cast at h4
          split_ifs at g1 g2 h4 <;> omega
        · have e : queueStep ipo a q = q := by
            unfold queueStep
            rw [if_neg hmem]
            simp [hi]
          rw [e] at j45 j135 ⊢
          unfold missingStep
          rw [if_neg hmem]
          simp only [hi, true_and]
          push_cast at h4
          split_ifs at h4 ⊢ <;> omega
    have i5 : ipo = true → ∀ x, x ≠ 0 → x ≠ 90 → x ≠ -90 →
        rest.count x + (queueStep ipo a q).count (-x) = rest.count (-x) + (queueStep ipo a q).count x := by
      intro hi x hx0 hx90 hx90'
      have g := h5 hi x hx0 hx90 hx90'
      by_cases hmem : a ∈ q
      · have g1 := count_queueStep_mem ipo a q hmem x
        have g2 := count_queueStep_mem ipo a q hmem (-x)
        omega
      · unfold queueStep
        rw [if_neg hmem]
        by_cases h0 : a = 0 ∨ a = 90
        · rw [if_neg (by tauto)]
          have g1 : ¬ a = x := by rintro rfl; tauto
          have g2 : ¬ a = -x := by intro h; rcases h0 with h0 | h0 <;> omega
          rw [if_neg g1, if_neg g2] at g
          omega
        · rw [if_pos ⟨hi, h0⟩]
          have e1 : List.count (-x) (q ++ [-a]) = List.count (-x) q + if -a = -x then 1 else 0 := by
            rw [List.count_append, List.count_singleton]; simp only [beq_iff_eq]
          have e2 : List.count x (q ++ [-a]) = List.count x q + if -a = x then 1 else 0 := by
            rw [List.count_append, List.count_singleton]; simp only [beq_iff_eq]
          rw [e1, e2]
          split_ifs at g ⊢ <;> omega
    simp only [queueLoop]
    rw [if_neg (by have := room _ _ _ i1 i4; omega)]
    exact ih _ _ _ i1 i2 i3 i4 i5 (by intro h; exact h6 (List.mem_cons_of_mem _ h))

/-- The plies considered are those of the first half of a symmetric laminate, or all plies. -/
theorem designCount (sym : Bool) (ss : Stack) (x : Int) :
    ((indPlies sym ss.length).map (nth ss)).count x =
      (if sym then ss.take (ss.length / 2) else ss).count x := by
  cases sym
  · have h1 := (indPlies_false_perm ss.length).map (nth ss)
    rw [map_nth_range] at h1
    simpa using h1.count_eq x
  · simp only [indPlies, if_true]
    rw [map_nth_range_take ss _ (by omega)]

/-- Minimum counts and plies of one half (all plies of an asymmetric laminate). -/
theorem mini_reached (a : ConsArgs) (c : Cons) (hc : mkConstraints a = .ok c) (ss : Stack)
    (hs : c.sym = true → Spec.Symmetric ss ∧ Spec.Middle0or90 ss)
    (hodd : c.sym = true → ss.length % 2 = 1 →
      (⌈(calcMini10 c ss.length).m0⌉ : Int) ≤ (ss.take (ss.length / 2)).count 0 ∧
      (⌈(calcMini10 c ss.length).m90⌉ : Int) ≤ (ss.take (ss.length / 2)).count 90)
    (hb : c.ipo = true → Spec.Balanced ss)
    (hm : Spec.MeetsShares c.shares 0 (ss.count 0) (ss.count 90) (ss.count 45) (ss.count (-45)) ss.length) :
    let V := (indPlies c.sym ss.length).map (nth ss)
    (⌈(calcMini10 c ss.length).m0⌉ : Int) ≤ V.count 0 ∧ (⌈(calcMini10 c ss.length).m90⌉ : Int) ≤ V.count 90 ∧
    (calcMini10 c ss.length).m45 ≤ V.count 45 ∧ (calcMini10 c ss.length).m135 ≤ V.count (-45) ∧
    (calcMini10 c ss.length).m45_135 ≤ (V.count 45 : Int) + V.count (-45) ∧
    (c.ipo = true → ∀ x, x ≠ 0 → x ≠ 90 → x ≠ -90 → V.count x = V.count (-x)) := by
  intro V
  have hV : ∀ x, V.count x = (if c.sym then ss.take (ss.length / 2) else ss).count x :=
    fun x => designCount c.sym ss x
  obtain ⟨h0, h90, h45, h135, h4⟩ := (C24_iff c ss hs hb).mpr hm
  simp only [hV]
  unfold Spec.perHalf at h0 h90 h45 h135 h4
  cases hsym : c.sym
  · simp only [hsym, Bool.false_eq_true, if_false] at h0 h90 h45 h135 h4 ⊢
    refine ⟨?_, ?_, by exact_mod_cast h45, by exact_mod_cast h135, by exact_mod_cast h4, hb⟩
    · rw [Int.ceil_le]; exact_mod_cast h0
    · rw [Int.ceil_le]; exact_mod_cast h90
  · obtain ⟨hsy, hmid⟩ := hs hsym
    have c45 := symmetric_count_even ss hsy hmid 45 (by decide) (by decide)
    have c135 := symmetric_count_even ss hsy hmid (-45) (by decide) (by decide)
    simp only [hsym, if_true] at h0 h90 h45 h135 h4 ⊢
    rw [c45] at h45 h4
    rw [c135] at h135 h4
    have e : ∀ k : Nat, ((2 * k : Nat) : ℚ) / 2 = (k : ℚ) := by intro k; push_cast; ring
    rw [e] at h45 h135
    rw [e, e] at h4
    have hz : (⌈(calcMini10 c ss.length).m0⌉ : Int) ≤ (ss.take (ss.length / 2)).count 0 ∧
        (⌈(calcMini10 c ss.length).m90⌉ : Int) ≤ (ss.take (ss.length / 2)).count 90 := by
      rcases Nat.mod_two_eq_zero_or_one ss.length with h2 | h2
      · have ev : ∀ x, ss.count x = 2 * (ss.take (ss.length / 2)).count x := by
          intro x; rw [symmetric_count ss hsy, h2]; simp
        rw [ev, e] at h0 h90
        constructor
        · rw [Int.ceil_le]; exact_mod_cast h0
        · rw [Int.ceil_le]; exact_mod_cast h90
      · exact hodd hsym h2
    refine ⟨hz.1, hz.2, by exact_mod_cast h45, by exact_mod_cast h135, by exact_mod_cast h4, ?_⟩
    intro hi x hx0 hx90 hx90'
    have := hb hi x hx0 hx90 hx90'
    rw [symmetric_count_even ss hsy hmid x hx0 hx90,
      symmetric_count_even ss hsy hmid (-x) (by omega) (by omega)] at this
    omega

/-- C25: the minimum counts fit into every size for which a compliant laminate exists (asymmetric
laminates, and symmetric ones without middle ply). -/
theorem C25_fits (a : ConsArgs) (c : Cons) (hc : mkConstraints a = .ok c) (ss : Stack)
    (hs : c.sym = true → Spec.Symmetric ss ∧ ss.length % 2 = 0)
    (hb : c.ipo = true → Spec.Balanced ss)
    (hm : Spec.MeetsShares c.shares 0 (ss.count 0) (ss.count 90) (ss.count 45) (ss.count (-45)) ss.length) :
    (⌈(calcMini10 c ss.length).m0⌉ + ⌈(calcMini10 c ss.length).m90⌉ +
      max ((calcMini10 c ss.length).m45 + (calcMini10 c ss.length).m135)
        (calcMini10 c ss.length).m45_135 : Int) ≤ Spec.designPlies c.sym ss.length := by
  obtain ⟨h0, h90, h45, h135, h4, _⟩ := mini_reached a c hc ss
    (fun h => ⟨(hs h).1, fun h2 => by have := (hs h).2; omega⟩)
    (fun h h2 => by have := (hs h).2; omega) hb hm
  generalize hV : (indPlies c.sym ss.length).map (nth ss) = V at *
  have hl : V.length = Spec.designPlies c.sym ss.length := by
    rw [← hV, List.length_map, indPlies_length]
  rw [← hl]
  have h := room (List.replicate (V.count 0) 0 ++ List.replicate (V.count 90) 90) V
    ((V.count 45 : Int) + V.count (-45)) (by
      intro x
      rw [List.count_append]
      by_cases h1 : x = 0
      · subst h1; rw [List.count_replicate_self, count_replicate_ne _ _ _ (by decide)]; omega
      · by_cases h2 : x = 90
        · subst h2; rw [List.count_replicate_self, count_replicate_ne _ _ _ (by decide)]; omega
        · rw [count_replicate_ne _ _ _ (Ne.symm h1), count_replicate_ne _ _ _ (Ne.symm h2)]; omega) (by
      rw [List.count_append, List.count_append, count_replicate_ne _ _ _ (by decide),
        count_replicate_ne _ _ _ (by decide), count_replicate_ne _ _ _ (by decide),
        count_replicate_ne _ _ _ (by decide)]
      omega)
  simp only [List.length_append, List.length_replicate] at h
  omega

/-- C26: a laminate that is balanced (when balance is required) and has the requested share of plies
in each direction is returned unchanged with an empty queue.  For a symmetric laminate with a middle
ply, the middle ply must be at 0 or 90 degrees and the first half alone must reach the minimum counts
of the 0 and 90 plies. -/
theorem C26_unchanged (a : ConsArgs) (c : Cons) (hc : mkConstraints a = .ok c) (ss : Stack)
    (hang : ∀ x ∈ ss, Spec.PlyAngle x)
    (hs : c.sym = true → Spec.Symmetric ss ∧ Spec.Middle0or90 ss)
    (hodd : c.sym = true → ss.length % 2 = 1 →
      (⌈(calcMini10 c ss.length).m0⌉ : Int) ≤ (ss.take (ss.length / 2)).count 0 ∧
      (⌈(calcMini10 c ss.length).m90⌉ : Int) ≤ (ss.take (ss.length / 2)).count 90)
    (hb : c.ipo = true → Spec.Balanced ss)
    (hm : Spec.MeetsShares c.shares 0 (ss.count 0) (ss.count 90) (ss.count 45) (ss.count (-45)) ss.length) :
    repair10Bal2 c (calcMini10 c ss.length) ss = (ss, []) := by
  obtain ⟨h0, h90, h45, h135, h4, hbal⟩ := mini_reached a c hc ss hs hodd hb hm
  obtain ⟨hp0, hp90, hp45, hp135, hmis, hmis0, hp4⟩ := mini_nonneg a c hc ss.length
  have hfix : fixMiddle c.sym ss = ss := by
    unfold fixMiddle
    rw [if_neg]
    rintro ⟨g1, g2, g3⟩
    have g4 := (hs g1).2 (by omega)
    have g5 : ss[ss.length / 2]? = some (nth ss (ss.length / 2)) := by
      rw [nth_eq_getElem _ _ (by omega), List.getElem?_eq_getElem]
    rw [g5] at g4
    simp only [Option.some.injEq] at g4
    exact g3 g4
  unfold repair10Bal2
  split_ifs with hen
  · rfl
  dsimp only
  rw [hfix]
  have hV90 : (-90 : Int) ∉ (indPlies c.sym ss.length).map (nth ss) := by
    intro h
    obtain ⟨i, hi, hi'⟩ := List.mem_map.mp h
    have hlt := indPlies_lt _ _ _ hi
    rw [nth_eq_getElem _ _ hlt] at hi'
    have := hang _ (List.getElem_mem hlt)
    unfold Spec.PlyAngle at this
    omega
  generalize (indPlies c.sym ss.length).map (nth ss) = V at *
  have hq : queueLoop c.ipo V (initQueue c (calcMini10 c ss.length)) (initMissing c (calcMini10 c ss.length)) 0
      = ([], 0, none) := by
    by_cases h10 : c.rule10 = true
    · obtain ⟨g0, g90, g45, g135, gx⟩ := initQueue_counts c (calcMini10 c ss.length) h10
      apply queueLoop_unchanged
      · intro x
        by_cases e0 : x = 0
        · subst e0; omega
        · by_cases e90 : x = 90
          · subst e90; omega
          · by_cases e45 : x = 45
            · subst e45; omega
            · by_cases e135 : x = -45
              · subst e135; omega
              · rw [gx x e0 e90 e45 e135]; omega
      · exact hmis
      · exact hmis0
      · rw [g45, g135]
        unfold initMissing
        split_ifs
        · omega
        · omega
      · intro hi x hx0 hx90 hx90'
        have e1 := hbal hi x hx0 hx90 hx90'
        have hb := (C24_balanced c ss.length hi).1
        have e2 : (initQueue c (calcMini10 c ss.length)).count x =
            (initQueue c (calcMini10 c ss.length)).count (-x) := by
          by_cases h45 : x = 45
          · rw [h45, g45, g135, hb]
          · by_cases h45' : x = -45
            · rw [h45']
              simp only [neg_neg]
              rw [g45, g135, hb]
            · rw [gx x hx0 hx90 h45 h45', gx (-x) (by omega) (by omega) (by omega) (by omega)]
        omega
      · exact hV90
    · have e1 : initQueue c (calcMini10 c ss.length) = [] := by
        unfold initQueue; rw [if_neg h10]
      have e2 : initMissing c (calcMini10 c ss.length) = 0 := by
        unfold initMissing; rw [if_neg (by tauto)]
      rw [e1, e2]
      apply queueLoop_unchanged
      · simp
      · exact le_refl _
      · intro _; rfl
      · simp; omega
      · intro hi x hx0 hx90 hx90'
        simpa using hbal hi x hx0 hx90 hx90'
      · exact hV90
  rw [hq]
  simp [extra45]

/-- A decidable form of the hypotheses of the examples below. -/
def exSs : Stack := [45, -45, 0, 90, 0, 45, -45, -45, 45, 0, 90, 0, -45, 45]

/-- The hypotheses of C24-C26 are met by a symmetric balanced laminate with 14 plies. -/
example : ∃ c, mkConstraints exArgs = .ok c ∧ Spec.Symmetric exSs ∧
    repair10Bal2 c (calcMini10 c 14) exSs = (exSs, []) := by
  obtain ⟨c, h, hp⟩ := ok_of_test (mkConstraints exArgs) (fun c => decide (
    repair10Bal2 c (calcMini10 c 14) exSs = (exSs, []))) (by decide +kernel)
  exact ⟨c, h, by unfold Spec.Symmetric exSs; decide, by simpa using hp⟩

/-- A laminate without 90 plies is repaired: the hypotheses of C25 are met with a non-empty queue. -/
example : ∃ c, mkConstraints exArgs = .ok c ∧
    (⌈(calcMini10 c 14).m0⌉ + ⌈(calcMini10 c 14).m90⌉ +
      max ((calcMini10 c 14).m45 + (calcMini10 c 14).m135) (calcMini10 c 14).m45_135 : Int)
        ≤ Spec.designPlies c.sym 14 ∧
    repair10Bal2 c (calcMini10 c 14) [45, -45, 0, 45, 45, 0, 0, 0, 0, 45, 45, 0, -45, 45] =
      ([45, -45, 0, 45, 666, 666, 666, 666, 666, 666, 45, 0, -45, 45], [90, -45, 0]) := by
  obtain ⟨c, h, hp⟩ := ok_of_test (mkConstraints exArgs) (fun c => decide (
    (⌈(calcMini10 c 14).m0⌉ + ⌈(calcMini10 c 14).m90⌉ +
      max ((calcMini10 c 14).m45 + (calcMini10 c 14).m135) (calcMini10 c 14).m45_135 : Int)
        ≤ Spec.designPlies c.sym 14 ∧
    repair10Bal2 c (calcMini10 c 14) [45, -45, 0, 45, 45, 0, 0, 0, 0, 45, 45, 0, -45, 45] =
      ([45, -45, 0, 45, 666, 666, 666, 666, 666, 666, 45, 0, -45, 45], [90, -45, 0]))) (by decide +kernel)
  exact ⟨c, h, by simpa using hp⟩

/-- symmetric laminate, 10% rule on the 0 direction, no balance. -/
def exArgsMid : ConsArgs := { sym := true, rule10 := true, percent0 := 50 }

/-- C26 (violation found): a symmetric laminate with a middle ply that satisfies the requested shares
is nevertheless changed, because the middle ply is not counted (first part: three 0 plies out of five
are enough, but one of the halves alone would need two) or because the middle ply is at 45 degrees
(second part, no balance required). -/
theorem C26_middle_ply_violation :
    ∃ c, mkConstraints exArgsMid = .ok c ∧
      Spec.Symmetric [0, 90, 0, 90, 0] ∧
      Spec.MeetsShares c.shares 0 3 2 0 0 5 ∧
      repair10Bal2 c (calcMini10 c 5) [0, 90, 0, 90, 0] ≠ ([0, 90, 0, 90, 0], []) ∧
      Spec.Symmetric [0, 0, 45, 0, 0] ∧
      Spec.MeetsShares c.shares 0 4 0 1 0 5 ∧
      repair10Bal2 c (calcMini10 c 5) [0, 0, 45, 0, 0] = ([0, 0, 0, 0, 0], []) := by
  obtain ⟨c, h, hp⟩ := ok_of_test (mkConstraints exArgsMid) (fun c => decide (
    c.p0 = 1 / 2 ∧ c.p90 = 0 ∧ c.p45 = 0 ∧ c.p135 = 0 ∧ c.p45_135 = 0 ∧
    repair10Bal2 c (calcMini10 c 5) [0, 90, 0, 90, 0] ≠ ([0, 90, 0, 90, 0], []) ∧
    repair10Bal2 c (calcMini10 c 5) [0, 0, 45, 0, 0] = ([0, 0, 0, 0, 0], []))) (by decide +kernel)
  simp only [decide_eq_true_eq] at hp
  obtain ⟨p0, p90, p45, p135, p4, h1, h2⟩ := hp
  refine ⟨c, h, by unfold Spec.Symmetric; decide, ?_, h1, by unfold Spec.Symmetric; decide, ?_, h2⟩
  · unfold Spec.MeetsShares Cons.shares
    simp only [p0, p90, p45, p135, p4]
    norm_num
  · unfold Spec.MeetsShares Cons.shares
    simp only [p0, p90, p45, p135, p4]
    norm_num

end Bella
