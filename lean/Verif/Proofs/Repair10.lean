import Verif.Model.Repair10
import Verif.Spec.Repair
import Verif.Proofs.Groups
import Verif.Proofs.Windows
import Mathlib.Tactic.Linarith
/-
Lemmas on the queue of plies of repair_10_bal_2.
-/
namespace Bella

theorem extra45_length (m : Int) : (extra45 m).length = m.toNat := by simp [extra45]

theorem extra45_count (m : Int) : (extra45 m).count 45 + (extra45 m).count (-45) = m.toNat := by
  unfold extra45
  induction m.toNat with
  | zero => simp
  | succ n ih =>
    rw [List.range_succ, List.map_append, List.count_append, List.count_append]
    simp only [List.map_cons, List.map_nil]
    have e1 : List.count (45 : Int) [45] = 1 := by decide
    have e2 : List.count (-45 : Int) [45] = 0 := by decide
    have e3 : List.count (45 : Int) [-45] = 0 := by decide
    have e4 : List.count (-45 : Int) [-45] = 1 := by decide
    split_ifs
    · rw [e1, e2]; omega
    · rw [e3, e4]; omega

theorem count_queueStep_mem (ipo : Bool) (a : Int) (q : List Int) (h : a ∈ q) (x : Int) :
    (queueStep ipo a q).count x + (if a = x then 1 else 0) = q.count x := by
  unfold queueStep
  rw [if_pos h]
  rw [List.count_erase]
  have : a = x → 0 < q.count x := by
    rintro rfl
    exact List.count_pos_iff.mpr h
  by_cases hx : a = x
  · have := this hx
    simp [hx]
    omega
  · simp [hx]

theorem queueStep_length_mem (ipo : Bool) (a : Int) (q : List Int) (h : a ∈ q) :
    (queueStep ipo a q).length + 1 = q.length := by
  unfold queueStep
  rw [if_pos h, List.length_erase_of_mem h]
  have := List.length_pos_of_mem h
  omega

/-- The loop of `repair_10_bal_2`: `j` plies of `V` are kept, the others are replaced by the queue. -/
theorem queueLoop_spec (ipo : Bool) (V : List Int) : ∀ (q : List Int) (m : Int) (k0 : Nat),
    (q.length : Int) + m ≤ V.length → 0 ≤ m → (ipo = true → m = 0) →
    ∃ j, j ≤ V.length ∧
      (((queueLoop ipo V q m k0).2.2 = none ∧ j = V.length ∧
          (queueLoop ipo V q m k0).1 ++ extra45 (queueLoop ipo V q m k0).2.1 = []) ∨
        ((queueLoop ipo V q m k0).2.2 = some (k0 + j) ∧ j < V.length ∧
          ∃ d, d ≤ 1 ∧
          ((queueLoop ipo V q m k0).1 ++ extra45 (queueLoop ipo V q m k0).2.1).length + j + d
            = V.length)) ∧
      (∀ x, q.count x ≤ (V.take j).count x +
        ((queueLoop ipo V q m k0).1 ++ extra45 (queueLoop ipo V q m k0).2.1).count x) ∧
      (((q.count 45 + q.count (-45) : Nat) : Int) + m ≤
        ((V.take j).count 45 + (V.take j).count (-45) +
        ((queueLoop ipo V q m k0).1 ++ extra45 (queueLoop ipo V q m k0).2.1).count 45 +
        ((queueLoop ipo V q m k0).1 ++ extra45 (queueLoop ipo V q m k0).2.1).count (-45) : Nat)) ∧
      (ipo = true → ∀ x, x ≠ 0 → x ≠ 90 → x ≠ -90 →
        (V.take j).count x +
          ((queueLoop ipo V q m k0).1 ++ extra45 (queueLoop ipo V q m k0).2.1).count x + q.count (-x) =
        (V.take j).count (-x) +
          ((queueLoop ipo V q m k0).1 ++ extra45 (queueLoop ipo V q m k0).2.1).count (-x) + q.count x) := by
  induction V with
  | nil =>
    intro q m k0 h1 h2 _
    simp only [List.length_nil, Nat.cast_zero] at h1
    have hq : q = [] := by
      apply List.eq_nil_of_length_eq_zero; omega
    have hm : m = 0 := by omega
    subst hq hm
    exact ⟨0, le_refl _, Or.inl ⟨rfl, rfl, rfl⟩, by simp [queueLoop, extra45], by simp [queueLoop, extra45],
      by simp [queueLoop, extra45]⟩
  | cons a rest ih =>
    intro q m k0 h1 h2 h3
    simp only [List.length_cons, Nat.cast_add, Nat.cast_one] at h1
    by_cases hstop : (rest.length : Int) < ((queueStep ipo a q).length : Int) + missingStep ipo a q m
    · -- the loop stops here
      have hr : queueLoop ipo (a :: rest) q m k0 = (q, missingStep ipo a q m, some k0) := by
        simp only [queueLoop]
        rw [if_pos hstop]
      have hnot : a ∉ q := by
        intro hmem
        have := queueStep_length_mem ipo a q hmem
        simp only [missingStep, if_pos hmem] at hstop
        omega
      have hm : missingStep ipo a q m = m ∧ m + q.length ≤ rest.length + 1 ∧
          (rest.length : Int) ≤ m + q.length := by
        unfold missingStep queueStep at hstop
        rw [if_neg hnot, if_neg hnot] at hstop
        unfold missingStep
        rw [if_neg hnot]
        by_cases hi : ipo = true
        · have hm0 := h3 hi
          simp only [hi, Bool.true_eq_false, false_and, if_false, true_and] at hstop ⊢
          refine ⟨by omega, ?_⟩
          by_cases h0 : a = 0 ∨ a = 90
          · rw [if_neg (not_not.mpr h0)] at hstop
            omega
          · rw [if_pos h0] at hstop
            simp only [List.length_append, List.length_cons, List.length_nil] at hstop
            push_cast at hstop
            omega
        · simp only [Bool.not_eq_true] at hi
          simp only [hi, Bool.false_eq_true, false_and, if_false, true_and] at hstop ⊢
          split_ifs at hstop ⊢ <;> omega
      rw [hr, hm.1]
      refine ⟨0, Nat.zero_le _, Or.inr ⟨rfl, by simp, ?_⟩, ?_, ?_, ?_⟩
      · refine ⟨rest.length + 1 - (q.length + m.toNat), by omega, ?_⟩
        simp only [List.length_append, extra45_length, List.length_cons]
        omega
      · intro x
        simp only [List.count_append]
        omega
      · have := extra45_count m
        simp only [List.count_append, List.take_zero, List.count_nil]
        omega
      · intro hi x _ _ _
        rw [h3 hi]
        simp [extra45]
        omega
    · have hr : queueLoop ipo (a :: rest) q m k0 =
          queueLoop ipo rest (queueStep ipo a q) (missingStep ipo a q m) (k0 + 1) := by
        conv_lhs => simp only [queueLoop]
        rw [if_neg hstop]
      rw [hr]
      have hm0 : 0 ≤ missingStep ipo a q m := by
        unfold missingStep
        split_ifs <;> omega
      have hm1 : ipo = true → missingStep ipo a q m = 0 := by
        intro hi
        unfold missingStep
        simp [hi, h3 hi]
      obtain ⟨j, hj, hc1, hc2, hc3, hc4⟩ := ih (queueStep ipo a q) (missingStep ipo a q m) (k0 + 1)
        (by omega) hm0 hm1
      generalize queueLoop ipo rest (queueStep ipo a q) (missingStep ipo a q m) (k0 + 1) = r at *
      refine ⟨j + 1, by simpa using hj, ?_, ?_, ?_, ?_⟩
      · rcases hc1 with ⟨g1, g2, g3⟩ | ⟨g1, g2, d, g3, g4⟩
        · exact Or.inl ⟨g1, by simp [g2], g3⟩
        · refine Or.inr ⟨?_, by simpa using g2, d, g3, ?_⟩
          · rw [g1]; congr 1; omega
          · simp only [List.length_cons]; omega
      · intro x
        have := hc2 x
        simp only [List.take_succ_cons, List.count_cons, beq_iff_eq]
        by_cases hmem : a ∈ q
        · have h4 := count_queueStep_mem ipo a q hmem x
          omega
        · unfold queueStep at this
          rw [if_neg hmem] at this
          split_ifs at this
          · rw [List.count_append] at this
            omega
          · omega
      · simp only [List.take_succ_cons, List.count_cons, beq_iff_eq]
        by_cases hmem : a ∈ q
        · have h4 := count_queueStep_mem ipo a q hmem 45
          have h5 := count_queueStep_mem ipo a q hmem (-45)
          simp only [missingStep, if_pos hmem] at hc3
          push_cast at hc3 ⊢
          split_ifs at h4 h5 ⊢ <;> omega
        · unfold queueStep missingStep at hc3
          rw [if_neg hmem, if_neg hmem] at hc3
          by_cases hi : ipo = true
          · simp only [hi, true_and] at hc3
            simp only [Bool.true_eq_false, false_and, if_false] at hc3
            by_cases h0 : a = 0 ∨ a = 90
            · rw [if_neg (not_not.mpr h0)] at hc3
              push_cast at hc3 ⊢
              split_ifs <;> omega
            · rw [if_pos h0] at hc3
              have e1 : List.count 45 (q ++ [-a]) ≥ List.count 45 q := by rw [List.count_append]; omega
              have e2 : List.count (-45) (q ++ [-a]) ≥ List.count (-45) q := by
                rw [List.count_append]; omega
              push_cast at hc3 ⊢
              split_ifs <;> omega
          · simp only [Bool.not_eq_true] at hi
            simp only [hi, Bool.false_eq_true, false_and, if_false, true_and] at hc3
            push_cast at hc3 ⊢
            split_ifs at hc3 ⊢ <;> omega
      · intro hi x hx0 hx90 hx90'
        have := hc4 hi x hx0 hx90 hx90'
        simp only [List.take_succ_cons, List.count_cons, beq_iff_eq]
        by_cases hmem : a ∈ q
        · have h4 := count_queueStep_mem ipo a q hmem x
          have h5 := count_queueStep_mem ipo a q hmem (-x)
          omega
        · unfold queueStep at this
          rw [if_neg hmem] at this
          simp only [hi, true_and] at this
          by_cases h0 : a = 0 ∨ a = 90
          · rw [if_neg (not_not.mpr h0)] at this
            have g1 : ¬ a = x := by rintro rfl; tauto
            have g2 : ¬ a = -x := by
              intro h; rcases h0 with h0 | h0 <;> omega
            rw [if_neg g1, if_neg g2]
            omega
          · rw [if_pos h0] at this
            have e1 : List.count (-x) (q ++ [-a]) = List.count (-x) q + if -a = -x then 1 else 0 := by
              rw [List.count_append, List.count_singleton]; simp only [beq_iff_eq]
            have e2 : List.count x (q ++ [-a]) = List.count x q + if -a = x then 1 else 0 := by
              rw [List.count_append, List.count_singleton]; simp only [beq_iff_eq]
            rw [e1, e2] at this
            split_ifs at this ⊢ <;> omega

theorem clearPlies_length (sym : Bool) (is : List Nat) (ss : Stack) :
    (clearPlies sym is ss).length = ss.length := by
  induction is generalizing ss with
  | nil => rfl
  | cons i is ih =>
    simp only [clearPlies]
    rw [ih]
    split <;> simp

theorem nth_set (ss : Stack) (i k : Nat) (v : Int) (hk : k < ss.length) :
    nth (ss.set i v) k = if i = k then v else nth ss k := by
  unfold nth
  rw [List.getD_eq_getElem?_getD, List.getD_eq_getElem?_getD, List.getElem?_set]
  split_ifs with h1 h2
  · rfl
  · omega
  · rfl

theorem clearPlies_nth (sym : Bool) (is : List Nat) (ss : Stack) (k : Nat) (hk : k < ss.length)
    (his : ∀ i ∈ is, i < ss.length) :
    nth (clearPlies sym is ss) k =
      if k ∈ is ∨ (sym = true ∧ ss.length - 1 - k ∈ is) then 666 else nth ss k := by
  induction is generalizing ss with
  | nil => simp [clearPlies]
  | cons i is ih =>
    have hi := his i (by simp)
    simp only [clearPlies]
    cases sym
    · simp only [Bool.false_eq_true, if_false, false_and, or_false]
      rw [ih (ss.set i 666) (by simpa using hk) (by
        intro j hj; simpa using his j (List.mem_cons_of_mem _ hj))]
      rw [nth_set _ _ _ _ hk]
      simp only [Bool.false_eq_true, false_and, or_false, List.mem_cons]
      split_ifs <;> tauto
    · simp only [if_true, true_and]
      rw [ih _ (by simpa using hk) (by
        intro j hj; simpa using his j (List.mem_cons_of_mem _ hj))]
      rw [nth_set _ _ _ _ (by simpa using hk), nth_set _ _ _ _ hk]
      simp only [List.length_set, List.mem_cons, true_and]
      have e : (ss.length - i - 1 = k) ↔ (ss.length - 1 - k = i) := by omega
      have e' : (k = i) ↔ (i = k) := eq_comm
      simp only [e, e']
      split_ifs <;> first | rfl | (exfalso; tauto)

theorem interleave_perm {α : Type} (A B : List α) : (interleave A B).Perm (A ++ B) := by
  induction A, B using interleave.induct with
  | case1 b => simp [interleave]
  | case2 x a => simp [interleave]
  | case3 x a y b ih =>
    simp only [interleave, List.cons_append]
    refine List.Perm.cons _ ?_
    exact (ih.cons y).trans List.perm_middle.symm

theorem indPlies_false_perm (n : Nat) : (indPlies false n).Perm (List.range n) := by
  unfold indPlies
  rw [if_neg (by simp)]
  refine (interleave_perm _ _).trans ?_
  refine (List.Perm.append_right _ (List.reverse_perm _)).trans ?_
  refine List.perm_append_comm.trans ?_
  rw [List.take_append_drop]

theorem indPlies_lt (sym : Bool) (n i : Nat) (h : i ∈ indPlies sym n) : i < n := by
  cases sym
  · have := (indPlies_false_perm n).mem_iff.mp h
    simpa using this
  · simp only [indPlies, if_true, List.mem_range] at h
    omega

theorem indPlies_nodup (sym : Bool) (n : Nat) : (indPlies sym n).Nodup := by
  cases sym
  · exact (indPlies_false_perm n).nodup_iff.mpr List.nodup_range
  · simp only [indPlies, if_true]
    exact List.nodup_range

theorem indPlies_length (sym : Bool) (n : Nat) : (indPlies sym n).length = Spec.designPlies sym n := by
  cases sym
  · rw [(indPlies_false_perm n).length_eq]
    simp [Spec.designPlies]
  · simp [indPlies, Spec.designPlies]

theorem map_nth_range (ss : Stack) : (List.range ss.length).map (nth ss) = ss := by
  apply List.ext_getElem
  · simp
  · intro i h1 h2
    simp only [List.getElem_map, List.getElem_range]
    exact nth_eq_getElem ss i h2

theorem map_nth_range_take (ss : Stack) (k : Nat) (hk : k ≤ ss.length) :
    (List.range k).map (nth ss) = ss.take k := by
  conv_rhs => rw [← map_nth_range ss]
  rw [← List.map_take]
  congr 1
  rw [List.take_range]
  congr 1
  omega

theorem symmetric_iff_nth (ss : Stack) :
    Spec.Symmetric ss ↔ ∀ i, i < ss.length → nth ss (ss.length - 1 - i) = nth ss i := by
  unfold Spec.Symmetric
  constructor
  · intro h i hi
    conv_rhs => rw [← h]
    rw [nth_eq_getElem _ _ (by omega), nth_eq_getElem _ _ (by simpa using hi), List.getElem_reverse]
  · intro h
    apply List.ext_getElem
    · simp
    · intro i h1 h2
      rw [List.getElem_reverse, ← nth_eq_getElem _ _ (by omega), ← nth_eq_getElem _ _ h2]
      exact h i h2

/-- The plies in the order in which they are considered, after the last ones have been cleared. -/
theorem map_nth_clearPlies (sym : Bool) (ss : Stack) (k : Nat) :
    (indPlies sym ss.length).map (nth (clearPlies sym ((indPlies sym ss.length).drop k) ss)) =
      ((indPlies sym ss.length).map (nth ss)).take k ++
        List.replicate ((indPlies sym ss.length).length - k) 666 := by
  have hlt : ∀ i ∈ (indPlies sym ss.length).drop k, i < ss.length := by
    intro i hi
    exact indPlies_lt sym _ i (List.mem_of_mem_drop hi)
  have hnd := indPlies_nodup sym ss.length
  have hsplit := List.take_append_drop k (indPlies sym ss.length)
  conv_lhs => enter [2]; rw [← hsplit]
  rw [List.map_append]
  congr 1
  · rw [← List.map_take]
    apply List.map_congr_left
    intro i hi
    have hi' : i ∈ indPlies sym ss.length := List.mem_of_mem_take hi
    rw [clearPlies_nth sym _ ss i (indPlies_lt sym _ i hi') hlt, if_neg]
    rintro (h | ⟨h, h2⟩)
    · rw [← hsplit, List.nodup_append] at hnd
      exact hnd.2.2 i hi i h rfl
    · subst h
      have h3 := List.mem_of_mem_drop h2
      simp only [indPlies, if_true, List.mem_range] at h3 hi'
      omega
  · rw [List.eq_replicate_iff]
    refine ⟨by simp, ?_⟩
    intro b hb
    obtain ⟨i, hi, rfl⟩ := List.mem_map.mp hb
    rw [clearPlies_nth sym _ ss i (hlt i hi) hlt, if_pos (Or.inl hi)]

theorem clearPlies_symmetric (is : List Nat) (ss : Stack) (h : Spec.Symmetric ss)
    (his : ∀ i ∈ is, i < ss.length) : Spec.Symmetric (clearPlies true is ss) := by
  rw [symmetric_iff_nth] at h ⊢
  rw [clearPlies_length]
  intro i hi
  rw [clearPlies_nth _ _ _ _ (by omega) his, clearPlies_nth _ _ _ _ hi his, h i hi]
  have e : ss.length - 1 - (ss.length - 1 - i) = i := by omega
  rw [e]
  simp only [true_and]
  split_ifs <;> first | rfl | (exfalso; tauto)

theorem fixMiddle_length (sym : Bool) (ss : Stack) : (fixMiddle sym ss).length = ss.length := by
  unfold fixMiddle
  split_ifs <;> simp

theorem fixMiddle_symmetric (sym : Bool) (ss : Stack) (h : Spec.Symmetric ss) :
    Spec.Symmetric (fixMiddle sym ss) := by
  unfold fixMiddle
  split_ifs with h1
  · rw [symmetric_iff_nth] at h ⊢
    intro i hi
    rw [List.length_set] at hi ⊢
    rw [nth_set _ _ _ _ (by omega), nth_set _ _ _ _ hi, h i hi]
    have : (ss.length / 2 = ss.length - 1 - i) ↔ (ss.length / 2 = i) := by omega
    simp only [this]
  · exact h

end Bella
