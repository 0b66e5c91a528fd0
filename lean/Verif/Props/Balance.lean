import Verif.Proofs.Common
import Verif.Model.Guidelines
import Verif.Spec.Layup
/-
Properties C06 (balance) and C07 (damage tolerance).
-/
set_option linter.unusedSimpArgs false

namespace Bella

/-- C06: `is_balanced` accepts exactly the balanced laminates. -/
theorem C06_is_balanced_iff (ss : Stack) : isBalanced ss = true ↔ Spec.Balanced ss := by
  unfold isBalanced Spec.Balanced
  simp only [List.all_eq_true, List.mem_filter, List.mem_dedup, List.mem_map, Bool.and_eq_true,
    bne_iff_ne, beq_iff_eq, and_imp, forall_exists_index]
  constructor
  · intro h a h0 h90 hm90
    by_cases hm : a ∈ ss ∨ -a ∈ ss
    · have key : ss.count ((a.natAbs : Int)) = ss.count (-(a.natAbs : Int)) := by
        rcases hm with hm | hm
        · exact h (a.natAbs : Int) a hm rfl (by omega) (by omega)
        · exact h (a.natAbs : Int) (-a) hm (by omega) (by omega) (by omega)
      rcases Int.natAbs_eq a with e | e
      · rw [← e] at key; exact key
      · have e2 : (a.natAbs : Int) = -a := by omega
        rw [e2] at key
        simpa using key.symm
    · push Not at hm
      rw [List.count_eq_zero_of_not_mem hm.1, List.count_eq_zero_of_not_mem hm.2]
  · rintro h a b _ rfl h0 h90
    exact h _ h0 h90 (by omega)

/-- C06: the verdict only depends on the ply content: re-ordering the plies does not change it. -/
theorem C06_is_balanced_perm (ss tt : Stack) (h : ss.Perm tt) : isBalanced ss = isBalanced tt := by
  rw [Bool.eq_iff_iff, C06_is_balanced_iff, C06_is_balanced_iff]
  unfold Spec.Balanced
  constructor <;> intro hb a h1 h2 h3
  · rw [← h.count_eq, ← h.count_eq]; exact hb a h1 h2 h3
  · rw [h.count_eq, h.count_eq]; exact hb a h1 h2 h3

theorem sum_pairs_le (n : List ℚ) (hn : ∀ x ∈ n, 0 ≤ x) :
    ∀ (l : List Nat), l.Nodup → (l.map (fun i => cnt n i)).sum ≤ n.sum := by
  induction n with
  | nil =>
    intro l _
    have : (l.map (fun i => cnt [] i)) = l.map (fun _ => (0 : ℚ)) := by
      apply List.map_congr_left; intro i _; simp [cnt]
    rw [this]; simp
  | cons x n ih =>
    intro l hl
    have hx : 0 ≤ x := hn x (by simp)
    -- split the index 0 from the others
    have hsplit : ∀ l : List Nat, l.Nodup →
        (l.map (fun i => cnt (x :: n) i)).sum =
          (if 0 ∈ l then x else 0) +
            (((l.filter (· ≠ 0)).map (· - 1)).map (fun i => cnt n i)).sum := by
      intro l hl
      induction l with
      | nil => simp
      | cons i l ihl =>
        have hi := (List.nodup_cons.1 hl)
        rw [List.map_cons, List.sum_cons, ihl hi.2]
        by_cases h0 : i = 0
        · subst h0
          have : (0 : Nat) ∉ l := hi.1
          simp [cnt, this]
        · obtain ⟨j, rfl⟩ := Nat.exists_eq_succ_of_ne_zero h0
          have hmem : (0 ∈ (j + 1) :: l) ↔ 0 ∈ l := by simp
          simp only [Nat.succ_eq_add_one, hmem]
          simp [cnt]
          ring
    rw [hsplit l hl, List.sum_cons]
    have hnd : ((l.filter (· ≠ 0)).map (· - 1)).Nodup := by
      apply List.Nodup.map_on
      · intro a ha b hb hab
        simp at ha hb
        omega
      · exact hl.filter _
    have := ih (fun y hy => hn y (by simp [hy])) _ hnd
    split <;> linarith

theorem balTerms_nonneg (n : List ℚ) (ab : List (Int × Nat × Nat)) :
    0 ≤ (ab.map (fun t => |cnt n t.2.1 - cnt n t.2.2|)).sum := by
  apply List.sum_nonneg
  intro x hx
  obtain ⟨t, _, rfl⟩ := List.mem_map.1 hx
  exact abs_nonneg _

theorem cnt_nonneg (n : List ℚ) (hn : ∀ x ∈ n, 0 ≤ x) (i : Nat) : 0 ≤ cnt n i := by
  unfold cnt
  by_cases h : i < n.length
  · simp only [List.getD, List.getElem?_eq_getElem h, Option.getD_some]
    exact hn _ (List.getElem_mem h)
  · simp [List.getD, h]

theorem balTerms_le (n : List ℚ) (hn : ∀ x ∈ n, 0 ≤ x) (ab : List (Int × Nat × Nat)) :
    (ab.map (fun t => |cnt n t.2.1 - cnt n t.2.2|)).sum ≤
      ((ab.flatMap (fun t => [t.2.1, t.2.2])).map (fun i => cnt n i)).sum := by
  induction ab with
  | nil => simp
  | cons t ab ih =>
    simp only [List.map_cons, List.sum_cons, List.flatMap_cons, List.map_append, List.sum_append,
      List.map_nil, List.sum_nil]
    have h1 := cnt_nonneg n hn t.2.1
    have h2 := cnt_nonneg n hn t.2.2
    have : |cnt n t.2.1 - cnt n t.2.2| ≤ cnt n t.2.1 + cnt n t.2.2 := by
      rw [abs_le]; constructor <;> linarith
    linarith

/-- C06: the balance penalty lies between 0 and the cumulated areas. -/
theorem C06_penalty_bounds (n : List ℚ) (ab : List (Int × Nat × Nat)) (areas : ℚ)
    (hn : ∀ x ∈ n, 0 ≤ x) (ha : 0 ≤ areas)
    (hidx : (ab.flatMap (fun t => [t.2.1, t.2.2])).Nodup) :
    0 ≤ calcPenaltyBal n ab areas ∧ calcPenaltyBal n ab areas ≤ areas := by
  unfold calcPenaltyBal
  have hsum : 0 ≤ n.sum := List.sum_nonneg hn
  split
  · rename_i h0
    have hpos : 0 < n.sum := lt_of_le_of_ne hsum (Ne.symm h0)
    have h1 := balTerms_nonneg n ab
    have h2 := (balTerms_le n hn ab).trans (sum_pairs_le n hn _ hidx)
    constructor
    · positivity
    · rw [div_le_iff₀ hpos]
      exact mul_le_mul_of_nonneg_left h2 ha
  · exact ⟨le_refl _, ha⟩

theorem sum_zero_mem (l : List ℚ) (hn : ∀ x ∈ l, 0 ≤ x) (h : l.sum = 0) : ∀ x ∈ l, x = 0 := by
  induction l with
  | nil => simp
  | cons a l ih =>
    rw [List.sum_cons] at h
    have h1 : 0 ≤ a := hn a (by simp)
    have h2 : 0 ≤ l.sum := List.sum_nonneg (fun x hx => hn x (by simp [hx]))
    intro x hx
    rcases List.mem_cons.1 hx with rfl | hx
    · linarith
    · exact ih (fun y hy => hn y (by simp [hy])) (by linarith) x hx

/-- C06: with at least one ply and a positive area, the penalty is zero exactly when every angle
and its opposite have the same ply count. -/
theorem C06_penalty_zero_iff (n : List ℚ) (ab : List (Int × Nat × Nat)) (areas : ℚ)
    (hs : n.sum ≠ 0) (ha : areas ≠ 0) :
    calcPenaltyBal n ab areas = 0 ↔ ∀ t ∈ ab, cnt n t.2.1 = cnt n t.2.2 := by
  unfold calcPenaltyBal
  rw [if_pos hs, div_eq_zero_iff, mul_eq_zero]
  simp only [hs, ha, or_false, false_or]
  constructor
  · intro h t ht
    have hnn : ∀ x ∈ ab.map (fun t => |cnt n t.2.1 - cnt n t.2.2|), 0 ≤ x := by
      intro x hx
      obtain ⟨t, _, rfl⟩ := List.mem_map.1 hx
      exact abs_nonneg (cnt n t.2.1 - cnt n t.2.2)
    have hm := List.mem_map_of_mem (f := fun t : Int × Nat × Nat => |cnt n t.2.1 - cnt n t.2.2|) ht
    have h1 := sum_zero_mem _ hnn h _ hm
    rw [abs_eq_zero] at h1
    linarith
  · intro h
    apply List.sum_eq_zero
    intro x hx
    obtain ⟨t, ht, rfl⟩ := List.mem_map.1 hx
    rw [h t ht]; simp

/-- C06: the multi-laminate penalty is the list of the single-laminate penalties. -/
theorem C06_penalty_mp (ns : List (List ℚ)) (ab : List (Int × Nat × Nat)) (areas : ℚ) :
    calcPenaltyBalMp ns ab areas = ns.map (fun n => calcPenaltyBal n ab areas) := by
  unfold calcPenaltyBalMp
  apply List.map_congr_left
  intro n _
  unfold calcPenaltyBal
  split
  · rw [mul_div_assoc]
  · ring

example : isBalanced [0, 45, 90, -45, 30, -30] = true ∧ isBalanced [45, 45, -45] = false := by decide

example : (∀ x ∈ [(1 : ℚ), 2, 3, 2], 0 ≤ x) ∧ [(1 : ℚ), 2, 3, 2].sum ≠ 0 ∧
    (([(45, 2, 0)] : List (Int × Nat × Nat)).flatMap (fun t => [t.2.1, t.2.2])).Nodup ∧
    calcPenaltyBal [1, 2, 3, 2] [(45, 2, 0)] 1 = 1 / 4 := by
  refine ⟨?_, ?_, by decide, ?_⟩
  · intro x hx
    simp only [List.mem_cons, List.not_mem_nil, or_false] at hx
    rcases hx with rfl | rfl | rfl | rfl <;> norm_num
  · norm_num
  · norm_num [calcPenaltyBal, cnt, abs_of_pos]

/-! ### Damage tolerance -/

theorem prefix_one (ss : Stack) : (∃ a, Spec.PM45 a ∧ [a] <+: ss) ↔
    ∃ a, ss[0]? = some a ∧ Spec.PM45 a := by
  cases ss <;> simp [List.cons_prefix_cons, List.prefix_nil, and_comm]

theorem suffix_iff (l ss : Stack) : l <:+ ss ↔ l.reverse <+: ss.reverse := by
  rw [List.reverse_prefix]

theorem pm45_iff (a : Int) : pm45 a = true ↔ Spec.PM45 a := by simp [pm45, Spec.PM45]

theorem damTolRule1_iff (ss : Stack) : damTolRule1 ss = .ok true ↔ Spec.DamTol1 ss := by
  unfold Spec.DamTol1
  have hs : (∃ a, Spec.PM45 a ∧ [a] <:+ ss) ↔ ∃ a, ss.reverse[0]? = some a ∧ Spec.PM45 a := by
    rw [← prefix_one]; simp only [suffix_iff]; simp
  rw [prefix_one, hs]
  unfold damTolRule1 idxB idxF
  cases h1 : ss[0]? <;> cases h2 : ss.reverse[0]? <;>
    simp [h1, h2, bind, Except.bind, pure, Except.pure, ← pm45_iff]
  all_goals split_ifs <;> simp_all

theorem prefix_two (ss : Stack) (a b : Int) : [a, b] <+: ss ↔
    ss[0]? = some a ∧ ss[1]? = some b := by
  match ss with
  | [] => simp
  | [x] => simp [List.cons_prefix_cons]
  | x :: y :: t => simp [List.cons_prefix_cons, eq_comm]

theorem damTolRule3_iff (ss : Stack) : damTolRule3 ss = .ok true ↔ Spec.DamTol3 ss := by
  unfold Spec.DamTol3
  simp only [suffix_iff, List.reverse_cons, List.reverse_nil, List.nil_append, List.cons_append,
    prefix_two]
  unfold damTolRule3 idxB idxF
  cases h1 : ss[0]? <;> cases h2 : ss.reverse[0]? <;> cases h3 : ss[1]? <;>
    cases h4 : ss.reverse[1]? <;>
    simp [h1, h2, h3, h4, bind, Except.bind, pure, Except.pure, ← pm45_iff]
  all_goals split_ifs <;> simp_all

theorem pm45_neg (a : Int) : pm45 (-a) = pm45 a := by
  unfold pm45; rw [Bool.eq_iff_iff]; simp; omega

theorem damTolRule2_iff (ss : Stack) : damTolRule2 ss = .ok true ↔ Spec.DamTol2 ss := by
  unfold Spec.DamTol2
  simp only [suffix_iff, List.reverse_cons, List.reverse_nil, List.nil_append, List.cons_append,
    prefix_two]
  unfold damTolRule2 idxB idxF
  cases h1 : ss[0]? <;> cases h2 : ss.reverse[0]? <;> cases h3 : ss[1]? <;>
    cases h4 : ss.reverse[1]? <;>
    simp [h1, h2, h3, h4, bind, Except.bind, pure, Except.pure, ← pm45_iff]
  all_goals split_ifs <;> first | (simp_all [pm45_neg]; done) | (simp_all [pm45_neg]; omega) |
    (constructor
     · intro h; simp at h
     · rintro ⟨⟨g1, g2⟩, g3, g4⟩
       have k1 := congrArg pm45 g2
       have k2 := congrArg pm45 g4
       rw [pm45_neg] at k1 k2
       simp_all)

/-- C07: with the rule switched on, `is_dam_tol` accepts exactly the laminates with the outer plies
prescribed by the rule (rules 1, 2, 3 of a BELLA constraint object; one or two protected plies for
constraint objects with `n_plies_dam_tol`). -/
theorem C07_is_dam_tol_iff (ss : Stack) :
    (isDamTol ss true (.rule 1) = .ok true ↔ Spec.DamTol1 ss) ∧
    (isDamTol ss true (.rule 2) = .ok true ↔ Spec.DamTol2 ss) ∧
    (isDamTol ss true (.rule 3) = .ok true ↔ Spec.DamTol3 ss) ∧
    (isDamTol ss true (.nPlies 1) = .ok true ↔ Spec.DamTol1 ss) ∧
    (isDamTol ss true (.nPlies 2) = .ok true ↔ Spec.DamTol2 ss) := by
  refine ⟨?_, ?_, ?_, ?_, ?_⟩
  · simpa [isDamTol] using damTolRule1_iff ss
  · simpa [isDamTol] using damTolRule2_iff ss
  · simpa [isDamTol] using damTolRule3_iff ss
  · simpa [isDamTol] using damTolRule1_iff ss
  · simpa [isDamTol] using damTolRule2_iff ss

/-- C07: with at least two plies the answer for rules 1, 2, 3 is a boolean, so that a refused
laminate gets the answer False and not an exception. -/
theorem C07_is_dam_tol_total (ss : Stack) (h : 2 ≤ ss.length) (r : Int) (hr : r = 1 ∨ r = 2 ∨ r = 3) :
    ∃ b, isDamTol ss true (.rule r) = .ok b := by
  have h0 : ∃ a, ss[0]? = some a := ⟨_, List.getElem?_eq_getElem (by omega)⟩
  have h1 : ∃ a, ss[1]? = some a := ⟨_, List.getElem?_eq_getElem (by omega)⟩
  have h2 : ∃ a, ss.reverse[0]? = some a := ⟨_, List.getElem?_eq_getElem (by simp; omega)⟩
  have h3 : ∃ a, ss.reverse[1]? = some a := ⟨_, List.getElem?_eq_getElem (by simp; omega)⟩
  obtain ⟨a, ha⟩ := h0
  obtain ⟨b, hb⟩ := h1
  obtain ⟨z, hz⟩ := h2
  obtain ⟨y, hy⟩ := h3
  rcases hr with rfl | rfl | rfl
  · simp only [isDamTol, damTolRule1, idxB, idxF, ha, hz, bind, Except.bind, pure, Except.pure]
    split_ifs <;> simp_all
  · simp only [isDamTol, damTolRule2, idxB, idxF, ha, hb, hz, hy, bind, Except.bind, pure,
      Except.pure]
    split_ifs <;> simp_all
  · simp only [isDamTol, damTolRule3, idxB, idxF, ha, hb, hz, hy, bind, Except.bind, pure,
      Except.pure]
    split_ifs <;> simp_all

theorem suffix_reverse_iff (l ss : Stack) : l <:+ ss.reverse ↔ l.reverse <+: ss := by
  rw [suffix_iff]; simp

theorem prefix_reverse_iff (l ss : Stack) : l <+: ss.reverse ↔ l.reverse <:+ ss := by
  rw [suffix_iff]; simp

/-- C07: turning the laminate upside down does not change acceptance. -/
theorem C07_is_dam_tol_reverse (ss : Stack) (dt : Bool) (r : Int) (hr : r = 1 ∨ r = 2 ∨ r = 3) :
    isDamTol ss.reverse dt (.rule r) = .ok true ↔ isDamTol ss dt (.rule r) = .ok true := by
  have hneg : ∀ P : Int → Prop, (∃ a, Spec.PM45 a ∧ P (-a)) ↔ ∃ a, Spec.PM45 a ∧ P a := by
    intro P
    constructor
    · rintro ⟨a, h, hp⟩; exact ⟨-a, by unfold Spec.PM45 at *; omega, hp⟩
    · rintro ⟨a, h, hp⟩; exact ⟨-a, by unfold Spec.PM45 at *; omega, by simpa using hp⟩
  cases dt
  · simp [isDamTol]
  · obtain ⟨a1, a2, a3, _⟩ := C07_is_dam_tol_iff ss
    obtain ⟨b1, b2, b3, _⟩ := C07_is_dam_tol_iff ss.reverse
    rcases hr with rfl | rfl | rfl
    · rw [a1, b1]
      simp only [Spec.DamTol1, suffix_reverse_iff, prefix_reverse_iff, List.reverse_singleton]
      exact and_comm
    · rw [a2, b2]
      simp only [Spec.DamTol2, suffix_reverse_iff, prefix_reverse_iff, List.reverse_cons,
        List.reverse_nil, List.nil_append, List.cons_append]
      have e1 := hneg (fun a => [a, -a] <:+ ss)
      have e2 := hneg (fun a => [a, -a] <+: ss)
      simp only [neg_neg] at e1 e2
      rw [e1, e2]
      exact and_comm
    · rw [a3, b3]
      simp only [Spec.DamTol3, suffix_reverse_iff, prefix_reverse_iff, List.reverse_cons,
        List.reverse_nil, List.nil_append, List.cons_append]
      constructor
      · rintro ⟨⟨a, b, h1, h2, h3⟩, ⟨c, d, h4, h5, h6⟩⟩
        exact ⟨⟨d, c, h5, h4, h6⟩, ⟨b, a, h2, h1, h3⟩⟩
      · rintro ⟨⟨a, b, h1, h2, h3⟩, ⟨c, d, h4, h5, h6⟩⟩
        exact ⟨⟨d, c, h5, h4, h6⟩, ⟨b, a, h2, h1, h3⟩⟩

/-- C07: rule 2 is stronger than rule 3, which is stronger than rule 1. -/
theorem C07_rules_nested (ss : Stack) :
    (isDamTol ss true (.rule 2) = .ok true → isDamTol ss true (.rule 3) = .ok true) ∧
    (isDamTol ss true (.rule 3) = .ok true → isDamTol ss true (.rule 1) = .ok true) := by
  obtain ⟨a1, a2, a3, _⟩ := C07_is_dam_tol_iff ss
  rw [a1, a2, a3]
  constructor
  · rintro ⟨⟨a, h1, h2⟩, ⟨b, h3, h4⟩⟩
    exact ⟨⟨a, -a, h1, by unfold Spec.PM45 at *; omega, h2⟩,
      ⟨b, -b, h3, by unfold Spec.PM45 at *; omega, h4⟩⟩
  · rintro ⟨⟨a, b, h1, h2, h3⟩, ⟨c, d, h4, h5, h6⟩⟩
    refine ⟨⟨a, h1, List.IsPrefix.trans ?_ h3⟩, ⟨d, h5, List.IsSuffix.trans ?_ h6⟩⟩
    · exact ⟨[b], rfl⟩
    · exact ⟨[c], rfl⟩

example : isDamTol [45, -45, 0, 90, 45, -45] true (.rule 2) = .ok true ∧
    isDamTol [45, 45, 0, 90, 45, -45] true (.rule 2) = .ok false ∧
    isDamTol [45, 45, 0, 90, 45, -45] true (.rule 3) = .ok true ∧
    isDamTol [45, 0, 0, 90, 0, -45] true (.rule 3) = .ok false ∧
    isDamTol [45, 0, 0, 90, 0, -45] true (.rule 1) = .ok true := by decide

end Bella
