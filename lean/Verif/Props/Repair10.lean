import Verif.Proofs.Repair10
import Verif.Props.MinCounts
import Verif.Props.Constraints
/-
C25, C26: repair for balance and the 10% rule (ply-count variant).
-/
namespace Bella

/-- The middle ply of a symmetric laminate, as a list. -/
def midList (sym : Bool) (ss : Stack) : List Int :=
  if sym then (ss.drop (ss.length / 2)).take (ss.length % 2) else []

theorem count_clearPlies (sym : Bool) (ss : Stack) (k : Nat) (hs : sym = true → Spec.Symmetric ss)
    (x : Int) :
    (clearPlies sym ((indPlies sym ss.length).drop k) ss).count x =
      (if sym then 2 else 1) * ((((indPlies sym ss.length).map (nth ss)).take k ++
        List.replicate ((indPlies sym ss.length).length - k) 666).count x) + (midList sym ss).count x := by
  have h := map_nth_clearPlies sym ss k
  have hlt : ∀ i ∈ (indPlies sym ss.length).drop k, i < ss.length := by
    intro i hi
    exact indPlies_lt sym _ i (List.mem_of_mem_drop hi)
  have hlen := clearPlies_length sym ((indPlies sym ss.length).drop k) ss
  rw [← h]
  generalize hS : clearPlies sym ((indPlies sym ss.length).drop k) ss = S at *
  cases sym
  · simp only [midList, Bool.false_eq_true, if_false, List.count_nil, Nat.add_zero, Nat.one_mul]
    have h1 := (indPlies_false_perm ss.length).map (nth S)
    rw [← hlen, map_nth_range S, hlen] at h1
    exact (h1.count_eq x).symm
  · have hS2 : Spec.Symmetric S := by
      rw [← hS]
      exact clearPlies_symmetric _ ss (hs rfl) hlt
    simp only [midList, if_true]
    rw [symmetric_count S hS2]
    have e1 : (indPlies true ss.length).map (nth S) = S.take (S.length / 2) := by
      simp only [indPlies, if_true]
      rw [map_nth_range_take S _ (by omega), hlen]
    rw [e1]
    congr 2
    apply List.ext_getElem
    · simp [hlen]
    · intro i h1 h2
      simp only [List.length_take, List.length_drop] at h1 h2
      rw [List.getElem_take, List.getElem_take, List.getElem_drop, List.getElem_drop,
        ← nth_eq_getElem _ _ (by omega), ← nth_eq_getElem _ _ (by omega), ← hS,
        clearPlies_nth _ _ _ _ (by rw [clearPlies_length]; omega) hlt, clearPlies_length, if_neg]
      rintro (h3 | ⟨-, h3⟩)
      · have h3 := List.mem_of_mem_drop h3
        simp only [indPlies, if_true, List.mem_range] at h3
        omega
      · have h3 := List.mem_of_mem_drop h3
        simp only [indPlies, if_true, List.mem_range] at h3
        omega

theorem count_known (ss : Stack) (x : Int) (hx : x ≠ 666) :
    (Spec.knownPlies ss).count x = ss.count x := by
  unfold Spec.knownPlies
  rw [List.count_filter]
  simpa using hx

theorem clearPlies_nil (sym : Bool) (ss : Stack) : clearPlies sym [] ss = ss := rfl

/-- Both outcomes of `repair_10_bal_2` are of the same form: `k` plies kept and a queue for the
others. -/
theorem repair10Bal2_form (c : Cons) (mini : Mini10) (ss : Stack) (hen : c.ipo = true ∨ c.rule10 = true)
    (hm : 0 ≤ initMissing c mini) (hm0 : c.ipo = true → initMissing c mini = 0)
    (hfit : ((initQueue c mini).length : Int) + initMissing c mini ≤ Spec.designPlies c.sym ss.length) :
    ∃ k, k ≤ Spec.designPlies c.sym ss.length ∧
      (repair10Bal2 c mini ss).1 =
        clearPlies c.sym ((indPlies c.sym (fixMiddle c.sym ss).length).drop k) (fixMiddle c.sym ss) ∧
      (repair10Bal2 c mini ss).2.length + k = Spec.designPlies c.sym ss.length ∧
      (∀ x, (initQueue c mini).count x ≤
        (((indPlies c.sym (fixMiddle c.sym ss).length).map (nth (fixMiddle c.sym ss))).take k).count x +
          (repair10Bal2 c mini ss).2.count x) ∧
      ((((initQueue c mini).count 45 + (initQueue c mini).count (-45) : Nat) : Int) + initMissing c mini ≤
        ((((indPlies c.sym (fixMiddle c.sym ss).length).map (nth (fixMiddle c.sym ss))).take k).count 45 +
         (((indPlies c.sym (fixMiddle c.sym ss).length).map (nth (fixMiddle c.sym ss))).take k).count (-45) +
          (repair10Bal2 c mini ss).2.count 45 + (repair10Bal2 c mini ss).2.count (-45) : Nat)) ∧
      (c.ipo = true → ∀ x, x ≠ 0 → x ≠ 90 → x ≠ -90 →
        (((indPlies c.sym (fixMiddle c.sym ss).length).map (nth (fixMiddle c.sym ss))).take k).count x +
          (repair10Bal2 c mini ss).2.count x + (initQueue c mini).count (-x) =
        (((indPlies c.sym (fixMiddle c.sym ss).length).map (nth (fixMiddle c.sym ss))).take k).count (-x) +
          (repair10Bal2 c mini ss).2.count (-x) + (initQueue c mini).count x) := by
  have hl1 := fixMiddle_length c.sym ss
  have hN : (indPlies c.sym (fixMiddle c.sym ss).length).length = Spec.designPlies c.sym ss.length := by
    rw [indPlies_length, hl1]
  unfold repair10Bal2
  rw [if_neg (by rintro ⟨h1, h2⟩; simp [h1, h2] at hen)]
  dsimp only
  generalize hV : (indPlies c.sym (fixMiddle c.sym ss).length).map (nth (fixMiddle c.sym ss)) = V
  have hVl : V.length = Spec.designPlies c.sym ss.length := by rw [← hV, List.length_map, hN]
  obtain ⟨j, hj, h1, h2, h3, h4⟩ := queueLoop_spec c.ipo V (initQueue c mini) (initMissing c mini) 0
    (by rw [hVl]; exact hfit) hm hm0
  generalize queueLoop c.ipo V (initQueue c mini) (initMissing c mini) 0 = r at *
  generalize hq : r.1 ++ extra45 r.2.1 = q at *
  rcases h1 with ⟨g1, g2, g3⟩ | ⟨g1, g2, d, hd, g3⟩
  · refine ⟨j, by omega, ?_⟩
    simp only [g1]
    refine ⟨?_, ?_, h2, h3, h4⟩
    · rw [List.drop_eq_nil_of_le (by omega)]
      rfl
    · rw [g3]; simp; omega
  · refine ⟨j, by omega, ?_⟩
    simp only [g1, hN, Nat.zero_add]
    by_cases hd0 : d = 0
    · rw [if_neg (by push Not; omega)]
      refine ⟨trivial, by omega, h2, h3, h4⟩
    · rw [if_pos (by omega)]
      refine ⟨trivial, by simp only [List.length_append, List.length_cons, List.length_nil]; omega, ?_, ?_, ?_⟩
      · intro x
        have := h2 x
        rw [List.count_append]; omega
      · rw [List.count_append, List.count_append]
        push_cast at h3 ⊢
        omega
      · intro hi x hx hx2 hx3
        have := h4 hi x hx hx2 hx3
        have e1 : List.count x [0] = 0 := by
          rw [List.count_eq_zero]; simpa using hx
        have e2 : List.count (-x) [0] = 0 := by
          rw [List.count_eq_zero]; simpa using hx
        rw [List.count_append, List.count_append, e1, e2]
        omega

/-- The numbers used by the loop are consistent for every valid constraint object. -/
theorem mini_nonneg (a : ConsArgs) (c : Cons) (hc : mkConstraints a = .ok c) (n : Nat) :
    0 ≤ (calcMini10 c n).m0 ∧ 0 ≤ (calcMini10 c n).m90 ∧ 0 ≤ (calcMini10 c n).m45 ∧
    0 ≤ (calcMini10 c n).m135 ∧ 0 ≤ initMissing c (calcMini10 c n) ∧
    (c.ipo = true → initMissing c (calcMini10 c n) = 0) ∧
    (c.p45_135 = 0 → (calcMini10 c n).m45_135 ≤ (calcMini10 c n).m45 + (calcMini10 c n).m135) := by
  obtain ⟨⟨h0, _⟩, ⟨h45, _⟩, ⟨h90, _⟩, ⟨h135, _⟩, ⟨h4, _⟩, _, _, _, hor⟩ := C14_percentages a c hc
  have hn : (0 : ℚ) ≤ n := Nat.cast_nonneg n
  have z0 : (0 : Int) ≤ ⌈c.p0 * n⌉ := Int.ceil_nonneg (mul_nonneg h0 hn)
  have z90 : (0 : Int) ≤ ⌈c.p90 * n⌉ := Int.ceil_nonneg (mul_nonneg h90 hn)
  have z45 : (0 : Int) ≤ ⌈c.p45 * n⌉ := Int.ceil_nonneg (mul_nonneg h45 hn)
  have z135 : (0 : Int) ≤ ⌈c.p135 * n⌉ := Int.ceil_nonneg (mul_nonneg h135 hn)
  have z4 : (0 : Int) ≤ ⌈c.p45_135 * n⌉ := Int.ceil_nonneg (mul_nonneg h4 hn)
  have hz : c.p45_135 ≠ 0 → (⌈c.p45 * n⌉ : Int) = 0 ∧ (⌈c.p135 * n⌉ : Int) = 0 := by
    intro h
    rcases hor with hor | ⟨g1, g2⟩
    · exact absurd hor h
    · rw [g1, g2]; simp
  have hz2 : c.p45_135 = 0 → (⌈c.p45_135 * n⌉ : Int) = 0 := by
    intro h; rw [h]; simp
  unfold initMissing calcMini10
  generalize (⌈c.p0 * n⌉ : Int) = a0 at *
  generalize (⌈c.p90 * n⌉ : Int) = a90 at *
  generalize (⌈c.p45 * n⌉ : Int) = a45 at *
  generalize (⌈c.p135 * n⌉ : Int) = a135 at *
  generalize (⌈c.p45_135 * n⌉ : Int) = a4 at *
  have q0 : (0 : ℚ) ≤ (a0 : ℚ) := by exact_mod_cast z0
  have q90 : (0 : ℚ) ≤ (a90 : ℚ) := by exact_mod_cast z90
  have r0 : (0 : ℚ) ≤ (ceilDiv a0 2 : ℚ) := by
    have : 0 ≤ ceilDiv a0 2 := by unfold ceilDiv; omega
    exact_mod_cast this
  have r90 : (0 : ℚ) ≤ (ceilDiv a90 2 : ℚ) := by
    have : 0 ≤ ceilDiv a90 2 := by unfold ceilDiv; omega
    exact_mod_cast this
  have m0 : 0 ≤ (mini10Of c.sym c.ipo (n % 2 == 1) a0 a90 a45 a135 a4).m0 := by
    unfold mini10Of
    dsimp only
    split_ifs <;> dsimp only <;> first | assumption | exact div_nonneg q0 (by norm_num)
  have m90 : 0 ≤ (mini10Of c.sym c.ipo (n % 2 == 1) a0 a90 a45 a135 a4).m90 := by
    unfold mini10Of
    dsimp only
    split_ifs <;> dsimp only <;> first | assumption | exact div_nonneg q90 (by norm_num)
  refine ⟨m0, m90, ?_⟩
  by_cases hp : c.p45_135 = 0
  · have e4 := hz2 hp
    subst e4
    simp only [hp, ne_eq, not_true_eq_false, and_false, if_false]
    unfold mini10Of
    dsimp only
    cases c.sym <;> cases c.ipo <;> simp [ipoAdjust, ceilDiv] <;> omega
  · obtain ⟨e1, e2⟩ := hz hp
    subst e1 e2
    unfold mini10Of
    dsimp only
    cases c.sym <;> cases c.ipo <;> cases c.rule10 <;> simp [ipoAdjust, ceilDiv, hp] <;> (try split_ifs) <;> omega

theorem count_replicate_ne (n : Nat) (x y : Int) (h : y ≠ x) : (List.replicate n y).count x = 0 := by
  rw [List.count_eq_zero]
  intro h2
  exact h (List.eq_of_mem_replicate h2).symm

theorem initQueue_counts (c : Cons) (m : Mini10) (h : c.rule10 = true) :
    (initQueue c m).count 0 = (⌈m.m0⌉).toNat ∧ (initQueue c m).count 90 = (⌈m.m90⌉).toNat ∧
    (initQueue c m).count 45 = m.m45.toNat ∧ (initQueue c m).count (-45) = m.m135.toNat ∧
    (∀ x, x ≠ 0 → x ≠ 90 → x ≠ 45 → x ≠ -45 → (initQueue c m).count x = 0) := by
  unfold initQueue
  rw [if_pos h]
  refine ⟨?_, ?_, ?_, ?_, ?_⟩
  all_goals try intro x h1 h2 h3 h4
  all_goals simp only [List.count_append]
  · rw [List.count_replicate_self, count_replicate_ne _ _ _ (by decide), count_replicate_ne _ _ _ (by decide),
      count_replicate_ne _ _ _ (by decide)]
    omega
  · rw [List.count_replicate_self, count_replicate_ne _ _ _ (by decide), count_replicate_ne _ _ _ (by decide),
      count_replicate_ne _ _ _ (by decide)]
    omega
  · rw [List.count_replicate_self, count_replicate_ne _ _ _ (by decide), count_replicate_ne _ _ _ (by decide),
      count_replicate_ne _ _ _ (by decide)]
    omega
  · rw [List.count_replicate_self, count_replicate_ne _ _ _ (by decide), count_replicate_ne _ _ _ (by decide),
      count_replicate_ne _ _ _ (by decide)]
    omega
  · rw [count_replicate_ne _ _ _ h1.symm, count_replicate_ne _ _ _ h2.symm, count_replicate_ne _ _ _ h3.symm,
      count_replicate_ne _ _ _ h4.symm]

theorem mem_midList (sym : Bool) (ss : Stack) (x : Int) (hx0 : x ≠ 0) (hx90 : x ≠ 90) :
    (midList sym (fixMiddle sym ss)).count x = 0 := by
  rw [List.count_eq_zero]
  intro hmem
  unfold midList at hmem
  cases sym
  · simp at hmem
  · simp only [if_true, fixMiddle_length] at hmem
    obtain ⟨i, hi, hi'⟩ := List.mem_iff_getElem.mp hmem
    rw [List.getElem_take, List.getElem_drop] at hi'
    simp only [List.length_take, List.length_drop, fixMiddle_length] at hi
    have hi0 : i = 0 := by omega
    subst hi0
    rw [← nth_eq_getElem _ _ (by rw [fixMiddle_length]; omega)] at hi'
    simp only [Nat.add_zero] at hi'
    unfold fixMiddle at hi'
    split_ifs at hi' with h1
    · rw [nth_set _ _ _ _ (by omega)] at hi'
      simp at hi'
      exact hx0 hi'.symm
    · simp only [true_and, not_and_or, not_not] at h1
      rcases h1 with h1 | h1 | h1
      · omega
      · exact hx0 (by rw [← hi', h1])
      · exact hx90 (by rw [← hi', h1])

theorem queueLoop_mem (P : Int → Prop) (hneg : ∀ x, P x → P (-x)) (ipo : Bool) (V : List Int) :
    ∀ (q : List Int) (m : Int) (k : Nat), (∀ x ∈ V, P x) → (∀ x ∈ q, P x) →
      ∀ x ∈ (queueLoop ipo V q m k).1, P x := by
  induction V with
  | nil => intro q m k _ hq; simpa [queueLoop] using hq
  | cons a rest ih =>
    intro q m k hV hq
    simp only [queueLoop]
    split_ifs
    · exact hq
    · apply ih
      · intro x hx; exact hV x (List.mem_cons_of_mem _ hx)
      · intro x hx
        unfold queueStep at hx
        split_ifs at hx
        · exact hq x (List.mem_of_mem_erase hx)
        · rcases List.mem_append.mp hx with h | h
          · exact hq x h
          · rw [List.mem_singleton] at h
            rw [h]
            exact hneg a (hV a (by simp))
        · exact hq x hx

theorem fixMiddle_mem (sym : Bool) (ss : Stack) (x : Int) (h : x ∈ fixMiddle sym ss) : x ∈ ss ∨ x = 0 := by
  unfold fixMiddle at h
  split_ifs at h
  · exact List.mem_or_eq_of_mem_set h
  · exact Or.inl h

theorem repair10Bal2_queue_mem (c : Cons) (mini : Mini10) (ss : Stack)
    (hang : ∀ x ∈ ss, Spec.PlyAngle x) :
    ∀ x ∈ (repair10Bal2 c mini ss).2, x ≠ 666 ∧ x ≠ -666 := by
  have key : ∀ x ∈ (repair10Bal2 c mini ss).2, x ≠ 666 ∧ x ≠ -666 := by
    unfold repair10Bal2
    split_ifs with h
    · simp
    · dsimp only
      have h1 := queueLoop_mem (fun x => x ≠ 666 ∧ x ≠ -666) (by intro x hx; omega) c.ipo
        ((indPlies c.sym (fixMiddle c.sym ss).length).map (nth (fixMiddle c.sym ss)))
        (initQueue c mini) (initMissing c mini) 0 (by
          intro x hx
          obtain ⟨i, hi, rfl⟩ := List.mem_map.mp hx
          have hlt := indPlies_lt _ _ _ hi
          rw [nth_eq_getElem _ _ hlt]
          rcases fixMiddle_mem _ _ _ (List.getElem_mem hlt) with h2 | h2
          · have := hang _ h2
            unfold Spec.PlyAngle at this
            omega
          · rw [h2]; decide) (by
          intro x hx
          unfold initQueue at hx
          split_ifs at hx
          · simp only [List.mem_append, List.mem_replicate] at hx
            omega
          · simp at hx)
      have h2 : ∀ m, ∀ x ∈ extra45 m, x ≠ 666 ∧ x ≠ -666 := by
        intro m x hx
        unfold extra45 at hx
        obtain ⟨k, _, rfl⟩ := List.mem_map.mp hx
        split_ifs <;> decide
      generalize queueLoop c.ipo _ _ _ _ = r at *
      have h3 : ∀ x ∈ r.1 ++ extra45 r.2.1, x ≠ 666 ∧ x ≠ -666 := by
        intro x hx
        rcases List.mem_append.mp hx with h | h
        · exact h1 x h
        · exact h2 _ x h
      rcases hr : r.2.2 with _ | k
      · exact h3
      · dsimp only
        split_ifs
        · intro x hx
          rcases List.mem_append.mp hx with h | h
          · exact h3 x h
          · rw [List.mem_singleton] at h
            rw [h]; decide
        · exact h3
  exact key

/-- C25: for every laminate (symmetric if symmetry is required) and every valid constraint object for
which the minimum counts fit into the laminate, the repair for balance and the 10% rule returns a
partial laminate of the same size in which every ply is unchanged or marked as undetermined (the
middle ply of a symmetric laminate may be replaced by a 0 ply), symmetric if required, with as many
undetermined plies as there are plies in the queue (per half), such that the plies kept and those of
the queue together are balanced when balance is required and have the requested share of plies in
each direction. -/
theorem C25_repair_10_bal (a : ConsArgs) (c : Cons) (hc : mkConstraints a = .ok c) (ss : Stack)
    (hs : c.sym = true → Spec.Symmetric ss) (hang : ∀ x ∈ ss, Spec.PlyAngle x)
    (hfit : (⌈(calcMini10 c ss.length).m0⌉ + ⌈(calcMini10 c ss.length).m90⌉ +
      max ((calcMini10 c ss.length).m45 + (calcMini10 c ss.length).m135)
        (calcMini10 c ss.length).m45_135 : Int) ≤ Spec.designPlies c.sym ss.length) :
    let r := repair10Bal2 c (calcMini10 c ss.length) ss
    r.1.length = ss.length ∧
    (∀ i : Nat, r.1[i]? = ss[i]? ∨ r.1[i]? = some 666 ∨
      (c.sym = true ∧ ss.length % 2 = 1 ∧ i = ss.length / 2 ∧ r.1[i]? = some 0)) ∧
    (c.sym = true → Spec.Symmetric r.1) ∧
    r.1.count 666 = (if c.sym then 2 else 1) * r.2.length ∧
    (666 : Int) ∉ r.2 ∧
    (Spec.plyContent c.sym r.1 r.2).length = ss.length ∧
    (c.ipo = true → Spec.Balanced (Spec.plyContent c.sym r.1 r.2)) ∧
    Spec.MeetsShares c.shares 0 ((Spec.plyContent c.sym r.1 r.2).count 0)
      ((Spec.plyContent c.sym r.1 r.2).count 90) ((Spec.plyContent c.sym r.1 r.2).count 45)
      ((Spec.plyContent c.sym r.1 r.2).count (-45)) ss.length := by
  intro r
  have hqm := repair10Bal2_queue_mem c (calcMini10 c ss.length) ss hang
  change ∀ x ∈ r.2, x ≠ 666 ∧ x ≠ -666 at hqm
  have h666r : (666 : Int) ∉ r.2 := fun h => (hqm _ h).1 rfl
  obtain ⟨hp0, hp90, hp45, hp135, hmis, hmis0, hp4⟩ := mini_nonneg a c hc ss.length
  have hpz := (C14_percentages a c hc).2.2.2.2.2.2.1
  by_cases hen : c.ipo = true ∨ c.rule10 = true
  swap
  · -- nothing to do
    simp only [not_or, Bool.not_eq_true] at hen
    have hr : r = (ss, []) := by
      simp only [r, repair10Bal2]
      rw [if_pos hen]
    obtain ⟨g0, g45, g90, g135, g4, _⟩ := hpz (Or.inl hen.2)
    have hno : (666 : Int) ∉ ss := by
      intro h
      have := hang _ h
      unfold Spec.PlyAngle at this
      omega
    rw [hr]
    have hk : Spec.knownPlies ss = ss := by
      unfold Spec.knownPlies
      rw [List.filter_eq_self]
      intro x hx
      simp only [decide_eq_true_eq]
      rintro rfl
      exact hno hx
    have hcont : Spec.plyContent c.sym ss [] = ss := by
      unfold Spec.plyContent
      rw [hk]
      simp
    simp only [hcont]
    refine ⟨trivial, fun i => Or.inl trivial, hs, ?_, by simp, trivial, by simp [hen.1], ?_⟩
    · rw [List.count_eq_zero.mpr hno]; simp
    · unfold Spec.MeetsShares Cons.shares
      simp only [g0, g45, g90, g135, g4, zero_mul, add_zero]
      refine ⟨by positivity, by positivity, by positivity, by positivity, by positivity⟩
  · have hql : ((initQueue c (calcMini10 c ss.length)).length : Int) + initMissing c (calcMini10 c ss.length) ≤
        Spec.designPlies c.sym ss.length := by
      unfold initQueue initMissing
      have z0 : (0 : Int) ≤ ⌈(calcMini10 c ss.length).m0⌉ := Int.ceil_nonneg hp0
      have z90 : (0 : Int) ≤ ⌈(calcMini10 c ss.length).m90⌉ := Int.ceil_nonneg hp90
      by_cases h10 : c.rule10 = true
      · rw [if_pos h10]
        simp only [List.length_append, List.length_replicate, h10, true_and]
        push_cast
        split_ifs <;> omega
      · rw [if_neg h10]
        simp only [h10]
        simp
    obtain ⟨k, hk, hform, hlen, hcnt, hcnt45, hbal⟩ := repair10Bal2_form c (calcMini10 c ss.length) ss hen
      hmis hmis0 hql
    change r.1 = _ at hform
    change r.2.length + k = _ at hlen
    change ∀ x, _ ≤ _ + r.2.count x at hcnt
    change (_ : Int) ≤ ((_ + r.2.count 45 + r.2.count (-45) : Nat) : Int) at hcnt45
    change c.ipo = true → ∀ x, x ≠ 0 → x ≠ 90 → x ≠ -90 → _ + r.2.count x + _ = _ + r.2.count (-x) + _ at hbal
    have hl1 := fixMiddle_length c.sym ss
    have hsy1 : c.sym = true → Spec.Symmetric (fixMiddle c.sym ss) :=
      fun h => fixMiddle_symmetric c.sym ss (hs h)
    have hc2 := fun x => count_clearPlies c.sym (fixMiddle c.sym ss) k hsy1 x
    rw [← hform] at hc2
    have hN : (indPlies c.sym (fixMiddle c.sym ss).length).length = Spec.designPlies c.sym ss.length := by
      rw [indPlies_length, hl1]
    have hlt : ∀ i ∈ (indPlies c.sym (fixMiddle c.sym ss).length).drop k, i < (fixMiddle c.sym ss).length := by
      intro i hi
      exact indPlies_lt c.sym _ i (List.mem_of_mem_drop hi)
    have hlr : r.1.length = ss.length := by rw [hform, clearPlies_length, hl1]
    have hVmem : ∀ y : Int, y = 666 ∨ y = -666 →
        y ∉ ((indPlies c.sym (fixMiddle c.sym ss).length).map (nth (fixMiddle c.sym ss))).take k := by
      intro y hy h
      obtain ⟨i, hi, hi'⟩ := List.mem_map.mp (List.mem_of_mem_take h)
      have hlt := indPlies_lt _ _ _ hi
      rw [nth_eq_getElem _ _ hlt] at hi'
      have h2 := List.getElem_mem hlt
      rw [hi'] at h2
      rcases fixMiddle_mem _ _ _ h2 with h3 | h3
      · have := hang _ h3
        unfold Spec.PlyAngle at this
        omega
      · omega
    have hmid666 := mem_midList c.sym ss 666 (by decide) (by decide)
    generalize hK : ((indPlies c.sym (fixMiddle c.sym ss).length).map (nth (fixMiddle c.sym ss))).take k = K at *
    have hcount666 : r.1.count 666 = (if c.sym then 2 else 1) * r.2.length := by
      rw [hc2 666, hmid666, List.count_append, List.count_replicate_self, List.count_eq_zero.mpr (hVmem 666 (Or.inl rfl)), hN]
      have : Spec.designPlies c.sym ss.length - k = r.2.length := by omega
      rw [this, Nat.zero_add, Nat.add_zero]
    -- counts in the final content
    have hcont : ∀ x, x ≠ 666 → (Spec.plyContent c.sym r.1 r.2).count x =
        (if c.sym then 2 else 1) * (K.count x + r.2.count x) + (midList c.sym (fixMiddle c.sym ss)).count x := by
      intro x hx
      unfold Spec.plyContent
      rw [List.count_append, List.count_append, count_known _ _ hx, hc2 x, List.count_append,
        count_replicate_ne _ _ _ hx.symm]
      cases c.sym
      · simp; omega
      · simp; omega
    refine ⟨hlr, ?_, ?_, hcount666, h666r, ?_, ?_, ?_⟩
    · intro i
      by_cases hi : i < ss.length
      · have e1 : r.1[i]? = some (nth r.1 i) := by
          rw [nth_eq_getElem _ _ (by omega), List.getElem?_eq_getElem]
        have e2 : ss[i]? = some (nth ss i) := by
          rw [nth_eq_getElem _ _ hi, List.getElem?_eq_getElem]
        rw [e1, e2, hform, clearPlies_nth _ _ _ _ (by omega) hlt]
        split_ifs
        · exact Or.inr (Or.inl rfl)
        · unfold fixMiddle
          split_ifs with h1
          · rw [nth_set _ _ _ _ hi]
            split_ifs with h2
            · exact Or.inr (Or.inr ⟨h1.1, by omega, h2.symm, rfl⟩)
            · exact Or.inl rfl
          · exact Or.inl rfl
      · left
        rw [List.getElem?_eq_none (by omega), List.getElem?_eq_none (by omega)]
    · intro h
      rw [hform]
      have := clearPlies_symmetric _ (fixMiddle c.sym ss) (hsy1 h) hlt
      rw [h] at this ⊢
      exact this
    · have e : (Spec.knownPlies r.1).length + r.1.count 666 = r.1.length := by
        unfold Spec.knownPlies
        rw [List.count_eq_countP, ← List.countP_eq_length_filter, Nat.add_comm]
        rw [List.length_eq_countP_add_countP (fun x => x == (666 : Int)) (l := r.1)]
        congr 2
        funext x
        simp
      unfold Spec.plyContent
      rw [List.length_append, List.length_append]
      rw [hcount666, hlr] at e
      cases hsym : c.sym
      · simp only [hsym, Bool.false_eq_true, if_false, List.length_nil] at e ⊢
        omega
      · simp only [hsym, if_true] at e ⊢
        omega
    · intro hi x hx0 hx90 hx90'
      by_cases hx : x = 666 ∨ x = -666
      · -- such angles do not occur
        have h3 : ∀ y, (y = 666 ∨ y = -666) → (Spec.plyContent c.sym r.1 r.2).count y = 0 := by
          intro y hy
          have hq0 : r.2.count y = 0 := by
            rw [List.count_eq_zero]
            intro hmem
            have := hqm y hmem
            omega
          by_cases hy2 : y = 666
          · unfold Spec.plyContent
            rw [List.count_append, List.count_append, hq0]
            have : (Spec.knownPlies r.1).count y = 0 := by
              rw [List.count_eq_zero]
              unfold Spec.knownPlies
              simp [hy2]
            rw [this]
            cases c.sym
            · simp
            · simpa using hq0
          · rw [hcont y hy2, mem_midList _ _ y (by omega) (by omega), hq0,
              List.count_eq_zero.mpr (hVmem y hy)]
            simp
        rw [h3 x hx, h3 (-x) (by omega)]
      · rw [hcont x (by omega), hcont (-x) (by omega), mem_midList _ _ _ hx0 hx90,
          mem_midList _ _ (-x) (by omega) (by omega)]
        have h4 := hbal hi x hx0 hx90 hx90'
        have h5 : (initQueue c (calcMini10 c ss.length)).count x =
            (initQueue c (calcMini10 c ss.length)).count (-x) := by
          by_cases h10 : c.rule10 = true
          · obtain ⟨g0, g90, g45, g135, gx⟩ := initQueue_counts c (calcMini10 c ss.length) h10
            have hb := (C24_balanced c ss.length hi).1
            by_cases h45 : x = 45
            · rw [h45, g45, g135, hb]
            · by_cases h45' : x = -45
              · rw [h45']
                simp only [neg_neg]
                rw [g45, g135, hb]
              · rw [gx x hx0 hx90 h45 h45', gx (-x) (by omega) (by omega) (by omega) (by omega)]
          · unfold initQueue
            rw [if_neg h10]
            simp
        congr 2
        omega
    · -- shares
      by_cases h10 : c.rule10 = true
      swap
      · obtain ⟨g0, g45, g90, g135, g4, _⟩ := hpz (Or.inl (by simpa using h10))
        unfold Spec.MeetsShares Cons.shares
        simp only [g0, g45, g90, g135, g4, zero_mul, add_zero]
        refine ⟨by positivity, by positivity, by positivity, by positivity, by positivity⟩
      obtain ⟨g0, g90, g45, g135, -⟩ := initQueue_counts c (calcMini10 c ss.length) h10
      have k0 := hcnt 0
      have k90 := hcnt 90
      have k45 := hcnt 45
      have k135 := hcnt (-45)
      rw [g0] at k0
      rw [g90] at k90
      rw [g45] at k45 hcnt45
      rw [g135] at k135 hcnt45
      have f0 := hcont 0 (by decide)
      have f90 := hcont 90 (by decide)
      have f45 := hcont 45 (by decide)
      have f135 := hcont (-45) (by decide)
      rw [mem_midList _ _ _ (by decide) (by decide)] at f45 f135
      have hb45 : c.ipo = true → K.count 45 + r.2.count 45 = K.count (-45) + r.2.count (-45) := by
        intro hi
        have h4 := hbal hi 45 (by decide) (by decide) (by decide)
        rw [g45, g135, (C24_balanced c ss.length hi).1] at h4
        omega
      -- the minima are reached per half
      have u0 : (calcMini10 c ss.length).m0 ≤ ((K.count 0 + r.2.count 0 : Nat) : ℚ) := by
        refine (Int.le_ceil _).trans ?_
        have : (⌈(calcMini10 c ss.length).m0⌉ : Int) ≤ ((K.count 0 + r.2.count 0 : Nat) : Int) := by omega
        exact_mod_cast this
      have u90 : (calcMini10 c ss.length).m90 ≤ ((K.count 90 + r.2.count 90 : Nat) : ℚ) := by
        refine (Int.le_ceil _).trans ?_
        have : (⌈(calcMini10 c ss.length).m90⌉ : Int) ≤ ((K.count 90 + r.2.count 90 : Nat) : Int) := by omega
        exact_mod_cast this
      have u45 : ((calcMini10 c ss.length).m45 : ℚ) ≤ ((K.count 45 + r.2.count 45 : Nat) : ℚ) := by
        have : (calcMini10 c ss.length).m45 ≤ ((K.count 45 + r.2.count 45 : Nat) : Int) := by omega
        exact_mod_cast this
      have u135 : ((calcMini10 c ss.length).m135 : ℚ) ≤ ((K.count (-45) + r.2.count (-45) : Nat) : ℚ) := by
        have : (calcMini10 c ss.length).m135 ≤ ((K.count (-45) + r.2.count (-45) : Nat) : Int) := by omega
        exact_mod_cast this
      have u4 : ((calcMini10 c ss.length).m45_135 : ℚ) ≤ ((K.count 45 + r.2.count 45 : Nat) : ℚ) +
          ((K.count (-45) + r.2.count (-45) : Nat) : ℚ) := by
        have : (calcMini10 c ss.length).m45_135 ≤ ((K.count 45 + r.2.count 45 : Nat) : Int) +
            ((K.count (-45) + r.2.count (-45) : Nat) : Int) := by
          by_cases h4 : c.p45_135 = 0
          · have := hp4 h4
            omega
          · have e : initMissing c (calcMini10 c ss.length) = (calcMini10 c ss.length).m45_135 -
                (calcMini10 c ss.length).m45 - (calcMini10 c ss.length).m135 := by
              unfold initMissing
              rw [if_pos ⟨h10, h4⟩]
            rw [e] at hcnt45
            push_cast at hcnt45 ⊢
            omega
        exact_mod_cast this
      have goalInt : (⌈c.p0 * ss.length⌉ : Int) ≤ ((Spec.plyContent c.sym r.1 r.2).count 0 : Nat) ∧
          (⌈c.p90 * ss.length⌉ : Int) ≤ ((Spec.plyContent c.sym r.1 r.2).count 90 : Nat) ∧
          (⌈c.p45 * ss.length⌉ : Int) ≤ ((Spec.plyContent c.sym r.1 r.2).count 45 : Nat) ∧
          (⌈c.p135 * ss.length⌉ : Int) ≤ ((Spec.plyContent c.sym r.1 r.2).count (-45) : Nat) ∧
          (⌈c.p45_135 * ss.length⌉ : Int) ≤ (((Spec.plyContent c.sym r.1 r.2).count 45 +
            (Spec.plyContent c.sym r.1 r.2).count (-45) : Nat) : Int) := by
        rw [f0, f90, f45, f135]
        unfold calcMini10 at u0 u90 u45 u135 u4
        cases hsym : c.sym
        · rw [hsym] at u0 u90 u45 u135 u4
          have := (mini10Of_asym c.ipo (ss.length % 2 == 1) _ _ _ _ _ _ _ _ _ hb45).mp ⟨u0, u90, u45, u135, u4⟩
          simp only [Bool.false_eq_true, if_false]
          push_cast at this ⊢
          omega
        · rw [hsym] at u0 u90 u45 u135 u4
          have v0 : (mini10Of true c.ipo (ss.length % 2 == 1) ⌈c.p0 * ss.length⌉ ⌈c.p90 * ss.length⌉
              ⌈c.p45 * ss.length⌉ ⌈c.p135 * ss.length⌉ ⌈c.p45_135 * ss.length⌉).m0 ≤
              ((2 * (K.count 0 + r.2.count 0) : Nat) : ℚ) / 2 := by
            refine u0.trans (le_of_eq ?_); push_cast; ring
          have v90 : (mini10Of true c.ipo (ss.length % 2 == 1) ⌈c.p0 * ss.length⌉ ⌈c.p90 * ss.length⌉
              ⌈c.p45 * ss.length⌉ ⌈c.p135 * ss.length⌉ ⌈c.p45_135 * ss.length⌉).m90 ≤
              ((2 * (K.count 90 + r.2.count 90) : Nat) : ℚ) / 2 := by
            refine u90.trans (le_of_eq ?_); push_cast; ring
          have := (mini10Of_sym c.ipo (ss.length % 2 == 1) _ _ _ _ _ _ _ _ _ hb45 (by intro _; omega)
            (by intro _; omega)).mp ⟨v0, v90, u45, u135, u4⟩
          simp only [if_true]
          push_cast at this ⊢
          omega
      unfold Spec.MeetsShares Cons.shares
      obtain ⟨w0, w90, w45, w135, w4⟩ := goalInt
      rw [ceil_le_nat] at w0 w90 w45 w135 w4
      push_cast at w4
      simp only [zero_mul, add_zero]
      exact ⟨w0, w90, w45, w135, w4⟩

end Bella
