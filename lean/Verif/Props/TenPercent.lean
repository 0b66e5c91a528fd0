import Verif.Proofs.Counts
/-
Properties C08, C09 (10% rule) and the link between ply counts and the balance penalty (C06).
-/
namespace Bella

/-- the minimum shares stored in a constraint object -/
def Cons.shares (c : Cons) : Spec.Shares := ⟨c.p0, c.p90, c.p45, c.p135, c.p45_135⟩

/-- C06: for a constraint object that can be built and a laminate made of its angles, the balance
penalty of the laminate's ply counts vanishes exactly when `is_balanced` accepts the laminate. -/
theorem C06_penalty_vs_check (a : ConsArgs) (c : Cons) (hc : mkConstraints a = .ok c) (ss : Stack)
    (hss : ∀ x ∈ ss, x ∈ c.angles) (hne : ss ≠ []) (areas : ℚ) (ha : areas ≠ 0) :
    ∃ n, plyCounts c ss = .ok n ∧
      (calcPenaltyBal n c.anglesBal areas = 0 ↔ isBalanced ss = true) := by
  obtain ⟨n, hn, hlen, hsum, hcnt⟩ := plyCounts_spec a c hc ss hss
  obtain ⟨_, _, _, _, hr, hneg, _⟩ := C14_angles a c hc
  refine ⟨n, hn, ?_⟩
  have hs0 : n.sum ≠ 0 := by
    rw [hsum]
    have : ss.length ≠ 0 := by simpa using hne
    exact_mod_cast this
  rw [C06_penalty_zero_iff n _ _ hs0 ha, C06_is_balanced_iff]
  constructor
  · intro h
    have key : ∀ x, 0 < x → x < 90 → ss.count x = ss.count (-x) := by
      intro x h0 h90
      by_cases hx : x ∈ c.angles
      · obtain ⟨i, hi⟩ := List.mem_iff_getElem?.1 hx
        obtain ⟨j, hj⟩ := List.mem_iff_getElem?.1 (hneg x hx (by omega))
        have := h (x, i, j) ((C14_angles_bal a c hc x i j).2 ⟨h0, h90, hi, hj⟩)
        simp only [(hcnt i x hi).1, (hcnt j _ hj).1] at this
        exact_mod_cast this
      · have hx' : -x ∉ c.angles := by
          intro hm
          have := hneg (-x) hm (by omega)
          rw [neg_neg] at this
          exact hx this
        rw [List.count_eq_zero_of_not_mem (fun hm => hx (hss x hm)),
          List.count_eq_zero_of_not_mem (fun hm => hx' (hss _ hm))]
    intro x h0 h90 hm90
    by_cases hr1 : 0 < x ∧ x < 90
    · exact key x hr1.1 hr1.2
    · by_cases hr2 : 0 < -x ∧ -x < 90
      · have := key (-x) hr2.1 hr2.2
        rw [neg_neg] at this
        exact this.symm
      · have h1 : x ∉ ss := fun hm => by have := hr x (hss x hm); omega
        have h2 : -x ∉ ss := fun hm => by have := hr (-x) (hss _ hm); omega
        rw [List.count_eq_zero_of_not_mem h1, List.count_eq_zero_of_not_mem h2]
  · rintro hb ⟨x, i, j⟩ ht
    obtain ⟨h0, h90, hi, hj⟩ := (C14_angles_bal a c hc x i j).1 ht
    simp only [(hcnt i x hi).1, (hcnt j _ hj).1]
    have := hb x (by omega) (by omega) (by omega)
    exact_mod_cast this

/-- C08: comparison of a share with a requested share -/
theorem share_le_iff (n t p tol : ℚ) (ht : 0 < t) : ¬ n / t + tol < p ↔ p * t ≤ n + tol * t := by
  rw [not_lt]
  have e : n / t + tol = (n + tol * t) / t := by field_simp
  rw [e, le_div_iff₀ ht]

theorem tol15_pos : 0 < tol15 := by unfold tol15; norm_num

/-- C08: stack variant without ply queue: `is_ten_percent_rule` accepts exactly the laminates in
which each requested direction has its minimum share of the plies, up to the tolerance 1e-15. -/
theorem C08_stack_iff (c : Cons) (ss : Stack) (hne : ss ≠ []) :
    (isTenPercentStack c ss none false false = .ok true ↔
      Spec.MeetsShares c.shares (1 / 10 ^ 15) (ss.count 0) (ss.count 90) (ss.count 45)
        (ss.count (-45)) ss.length) ∧
    (isTenPercentStack c ss none false false = .ok false ↔
      ¬ Spec.MeetsShares c.shares (1 / 10 ^ 15) (ss.count 0) (ss.count 90) (ss.count 45)
        (ss.count (-45)) ss.length) := by
  have hl : ss.length ≠ 0 := by simpa using hne
  have ht : (0 : ℚ) < ss.length := by
    have : 0 < ss.length := Nat.pos_of_ne_zero hl
    exact_mod_cast this
  classical
  have key : isTenPercentStack c ss none false false = .ok (decide (
      Spec.MeetsShares c.shares (1 / 10 ^ 15) (ss.count 0) (ss.count 90) (ss.count 45)
        (ss.count (-45)) ss.length)) := by
    unfold isTenPercentStack
    rw [if_neg (by simp), if_neg hl]
    simp only [Except.ok.injEq, tenPercentCount]
    rw [Bool.eq_iff_iff, decide_eq_true_eq]
    unfold tenPercentTests Spec.MeetsShares Cons.shares
    simp only [true_and, Bool.false_eq_true, false_and, if_false]
    have e : ((ss.count 45 : ℚ) / ss.length + (ss.count (-45) : ℚ) / ss.length) =
      ((ss.count 45 : ℚ) + ss.count (-45)) / ss.length := by field_simp
    rw [e]
    have h0 := share_le_iff (ss.count 0) ss.length c.p0 tol15 ht
    have h1 := share_le_iff (ss.count 90) ss.length c.p90 tol15 ht
    have h2 := share_le_iff (ss.count 45) ss.length c.p45 tol15 ht
    have h3 := share_le_iff (ss.count (-45)) ss.length c.p135 tol15 ht
    have h4 := share_le_iff ((ss.count 45 : ℚ) + ss.count (-45)) ss.length c.p45_135 tol15 ht
    have et : (1 / 10 ^ 15 : ℚ) = tol15 := rfl
    rw [et, ← h0, ← h1, ← h2, ← h3, ← h4]
    split_ifs with g1 g2 g3
    · simp only [Bool.false_eq_true, false_iff]
      rintro ⟨a1, a2, _⟩
      exact g1.elim a1 a2
    · simp only [Bool.false_eq_true, false_iff]
      rintro ⟨_, _, a1, a2, _⟩
      exact g2.elim a1 a2
    · simp only [Bool.false_eq_true, false_iff]
      rintro ⟨_, _, _, _, a1⟩
      exact a1 g3
    · simp only [true_iff]
      rw [not_or] at g1 g2
      exact ⟨g1.1, g1.2, g2.1, g2.2, g3⟩
  rw [key]
  generalize Spec.MeetsShares c.shares (1 / 10 ^ 15) (ss.count 0) (ss.count 90) (ss.count 45)
        (ss.count (-45)) ss.length = P
  simp

/-- the share test depends on its laminate only through counts -/
theorem meetsShares_congr {p : Spec.Shares} {t : ℚ} {ss tt : Stack} (h : ss.Perm tt) :
    Spec.MeetsShares p t (ss.count 0) (ss.count 90) (ss.count 45) (ss.count (-45)) ss.length ↔
    Spec.MeetsShares p t (tt.count 0) (tt.count 90) (tt.count 45) (tt.count (-45)) tt.length := by
  rw [h.count_eq, h.count_eq, h.count_eq, h.count_eq, h.length_eq]

/-- C08: the verdict only depends on the ply content, whatever the options (no ply queue). -/
theorem C08_stack_perm (c : Cons) (ss tt : Stack) (h : ss.Perm tt) (e1 e2 : Bool) :
    isTenPercentStack c ss none e1 e2 = isTenPercentStack c tt none e1 e2 := by
  unfold isTenPercentStack tenPercentCount
  simp only [h.count_eq, h.length_eq]

/-- C08: with a ply queue and no symmetry, the verdict is the one of the laminate in which the
undetermined plies (marked 666) are replaced by the plies of the queue. -/
theorem C08_queue_asym (c : Cons) (hs : c.sym = false) (ss filled : Stack) (q : List Int)
    (hp : filled.Perm (ss.filter (· ≠ 666) ++ q)) (hlen : filled.length = ss.length)
    (hne : ss ≠ []) (e1 e2 : Bool) :
    isTenPercentStack c ss (some q) e1 e2 = isTenPercentStack c filled none e1 e2 := by
  have hl : ss.length ≠ 0 := by simpa using hne
  have hcount : ∀ x : Int, x ≠ 666 → filled.count x = ss.count x + q.count x := by
    intro x hx
    rw [hp.count_eq, List.count_append]
    congr 1
    rw [List.count_filter (by simpa using hx)]
  unfold isTenPercentStack tenPercentCount
  simp only [hs, Bool.false_eq_true, false_and, and_false, if_false, hlen, Option.isSome_none]
  rw [hcount 0 (by decide), hcount 45 (by decide), hcount 90 (by decide), hcount (-45) (by decide)]

/-- C08: for symmetric laminates with an even ply count, the verdict with a queue is the one of the
laminate in which the undetermined plies of each half are replaced by the plies of the queue. -/
theorem C08_queue_sym_even (c : Cons) (hs : c.sym = true) (ss half : Stack) (q : List Int)
    (heven : ss.length % 2 = 0)
    (hp : half.Perm ((ss.take (ss.length / 2)).filter (· ≠ 666) ++ q))
    (hlen : half.length = ss.length / 2) (hne : ss ≠ []) (e1 e2 : Bool) :
    isTenPercentStack c ss (some q) e1 e2 =
      isTenPercentStack c (half ++ half.reverse) none e1 e2 := by
  have hl : ss.length ≠ 0 := by simpa using hne
  have hcount : ∀ x : Int, x ≠ 666 →
      half.count x = (ss.take (ss.length / 2)).count x + q.count x := by
    intro x hx
    rw [hp.count_eq, List.count_append]
    congr 1
    rw [List.count_filter (by simpa using hx)]
  have hlen2 : (half ++ half.reverse).length = ss.length := by
    rw [List.length_append, List.length_reverse, hlen]; omega
  have h1 : ss.length ≠ 1 := by omega
  have hc2 : ∀ x : Int, x ≠ 666 → (((half ++ half.reverse).count x : Nat) : ℚ) =
      2 * (((ss.take (ss.length / 2)).count x + q.count x : Nat) : ℚ) := by
    intro x hx
    rw [List.count_append, List.count_reverse, hcount x hx]; push_cast; ring
  unfold isTenPercentStack tenPercentCount
  simp only [hs, heven, h1, hlen2, if_true, and_false, if_false, Option.isSome_none, ne_eq,
    not_true_eq_false, Bool.false_eq_true, false_and]
  rw [hc2 0 (by decide), hc2 45 (by decide), hc2 90 (by decide), hc2 (-45) (by decide)]

/-- C08 (violation found): for a symmetric laminate with an odd ply count, the code reads the second
ply of the laminate instead of its middle ply: a complete laminate that violates the requested
share of 0 plies is accepted with an empty queue, and refused when checked without queue. -/
theorem C08_queue_sym_odd_wrong :
    ∃ (c : Cons) (ss : Stack), c.sym = true ∧ ss.reverse = ss ∧
      isTenPercentStack c ss (some []) false false = .ok true ∧
      isTenPercentStack c ss none false false = .ok false := by
  obtain ⟨c, h, hp⟩ := ok_of_test
    (mkConstraints { sym := true, rule10 := true, percent0 := 50, setOfAngles := [0, 45, -45, 90] })
    (fun c => decide (c.sym = true ∧
      isTenPercentStack c [45, 0, 90, 0, 45] (some []) false false = .ok true ∧
      isTenPercentStack c [45, 0, 90, 0, 45] none false false = .ok false)) (by decide +kernel)
  simp only [decide_eq_true_eq] at hp
  exact ⟨c, _, hp.1, rfl, hp.2.1, hp.2.2⟩

/-- C08: for symmetric laminates with an odd ply count (at least three), the ply read as the middle ply is the second
ply of the laminate: the verdict with a queue is the one of the completed laminate with this ply in the middle,
hence the right one when the middle ply has the angle of the second ply. -/
theorem C08_queue_sym_odd (c : Cons) (hs : c.sym = true) (ss half : Stack) (q : List Int) (m : Int)
    (hodd : ss.length % 2 = 1) (h3 : 3 ≤ ss.length) (hm : ss[1]? = some m)
    (hp : half.Perm ((ss.take (ss.length / 2)).filter (· ≠ 666) ++ q))
    (hlen : half.length = ss.length / 2) (e1 e2 : Bool) :
    isTenPercentStack c ss (some q) e1 e2 =
      isTenPercentStack c (half ++ [m] ++ half.reverse) none e1 e2 := by
  have hl : ss.length ≠ 0 := by omega
  have hcount : ∀ x : Int, x ≠ 666 →
      half.count x = (ss.take (ss.length / 2)).count x + q.count x := by
    intro x hx
    rw [hp.count_eq, List.count_append]
    congr 1
    rw [List.count_filter (by simpa using hx)]
  have hlen2 : (half ++ [m] ++ half.reverse).length = ss.length := by
    rw [List.length_append, List.length_append, List.length_reverse, hlen, List.length_singleton]; omega
  have h1 : ss.length ≠ 1 := by omega
  have hn : nth ss (ss.length % 2) = m := by
    unfold nth
    rw [hodd, List.getD_eq_getElem?_getD, hm]
    rfl
  have hc2 : ∀ x : Int, x ≠ 666 → tenPercentCount true ss (some q) x =
      (((half ++ [m] ++ half.reverse).count x : Nat) : ℚ) := by
    intro x hx
    unfold tenPercentCount
    dsimp only
    rw [if_pos rfl, if_pos (by omega), hn, List.count_append, List.count_append, List.count_reverse, hcount x hx,
      List.count_singleton]
    by_cases hmx : m = x
    · subst hmx
      rw [if_pos rfl, if_pos (by simp)]
      push_cast
      ring
    · rw [if_neg hmx, if_neg (by simpa using hmx)]
      push_cast
      ring
  unfold isTenPercentStack
  simp only [hs, hlen2, h1, and_false, if_false, if_neg hl, Option.isSome_none, Bool.false_eq_true, false_and]
  rw [hc2 0 (by decide), hc2 45 (by decide), hc2 90 (by decide), hc2 (-45) (by decide)]
  rfl

/-- C08: `equality_0_90` replaces the two tests on 0 and 90 plies by a single one on their sum, and `equality_45_135` the
two tests on +45 and -45 plies. -/
theorem C08_stack_merged_iff (c : Cons) (ss : Stack) (hne : ss ≠ []) (e45 e0 : Bool) :
    isTenPercentStack c ss none e45 e0 = .ok true ↔
      (if e0 then (c.p0 + c.p90) * ss.length ≤ ss.count 0 + ss.count 90 + (1 / 10 ^ 15) * ss.length
       else c.p0 * ss.length ≤ ss.count 0 + (1 / 10 ^ 15) * ss.length ∧
        c.p90 * ss.length ≤ ss.count 90 + (1 / 10 ^ 15) * ss.length) ∧
      (if e45 then (c.p45 + c.p135) * ss.length ≤ ss.count 45 + ss.count (-45) + (1 / 10 ^ 15) * ss.length
       else c.p45 * ss.length ≤ ss.count 45 + (1 / 10 ^ 15) * ss.length ∧
        c.p135 * ss.length ≤ ss.count (-45) + (1 / 10 ^ 15) * ss.length) ∧
      c.p45_135 * ss.length ≤ ss.count 45 + ss.count (-45) + (1 / 10 ^ 15) * ss.length := by
  have hl : ss.length ≠ 0 := by simpa using hne
  have ht : (0 : ℚ) < ss.length := by
    have : 0 < ss.length := Nat.pos_of_ne_zero hl
    exact_mod_cast this
  unfold isTenPercentStack
  rw [if_neg (by simp), if_neg hl]
  simp only [Except.ok.injEq, tenPercentCount]
  unfold tenPercentTests
  have e : ((ss.count 45 : ℚ) / ss.length + (ss.count (-45) : ℚ) / ss.length) =
    ((ss.count 45 : ℚ) + ss.count (-45)) / ss.length := by field_simp
  have e' : ((ss.count 0 : ℚ) / ss.length + (ss.count 90 : ℚ) / ss.length) =
    ((ss.count 0 : ℚ) + ss.count 90) / ss.length := by field_simp
  rw [e, e']
  have h0 := share_le_iff (ss.count 0) ss.length c.p0 tol15 ht
  have h1 := share_le_iff (ss.count 90) ss.length c.p90 tol15 ht
  have h2 := share_le_iff (ss.count 45) ss.length c.p45 tol15 ht
  have h3 := share_le_iff (ss.count (-45)) ss.length c.p135 tol15 ht
  have h4 := share_le_iff ((ss.count 45 : ℚ) + ss.count (-45)) ss.length c.p45_135 tol15 ht
  have h5 := share_le_iff ((ss.count 45 : ℚ) + ss.count (-45)) ss.length (c.p45 + c.p135) tol15 ht
  have h6 := share_le_iff ((ss.count 0 : ℚ) + ss.count 90) ss.length (c.p0 + c.p90) tol15 ht
  have et : (1 / 10 ^ 15 : ℚ) = tol15 := rfl
  rw [et, ← h0, ← h1, ← h2, ← h3, ← h4, ← h5, ← h6]
  cases e45 <;> cases e0 <;> simp only [Bool.true_eq_false, Bool.false_eq_true, false_and, true_and, if_true, if_false] <;>
    clear h0 h1 h2 h3 h4 h5 h6 e e' et <;> split_ifs <;> simp only [Bool.false_eq_true, false_iff, true_iff] <;> tauto

/-- A symmetric laminate of five plies with two undetermined plies, completed with the queue. -/
example : ∃ c, mkConstraints { sym := true, rule10 := true, percent0 := 50, setOfAngles := [0, 45, -45, 90] } = .ok c ∧
    c.sym = true ∧
    isTenPercentStack c [666, 0, 0, 0, 666] (some [45]) false false = .ok true ∧
    isTenPercentStack c [45, 0, 0, 0, 45] none false false = .ok true ∧
    isTenPercentStack c [90, 0, 45, 0, 90] none false true = .ok true ∧
    isTenPercentStack c [90, 0, 45, 0, 90] none false false = .ok false := by
  obtain ⟨c, h, hp⟩ := ok_of_test
    (mkConstraints { sym := true, rule10 := true, percent0 := 50, setOfAngles := [0, 45, -45, 90] })
    (fun c => decide (c.sym = true ∧ isTenPercentStack c [666, 0, 0, 0, 666] (some [45]) false false = .ok true ∧
    isTenPercentStack c [45, 0, 0, 0, 45] none false false = .ok true ∧
    isTenPercentStack c [90, 0, 45, 0, 90] none false true = .ok true ∧
    isTenPercentStack c [90, 0, 45, 0, 90] none false false = .ok false)) (by decide +kernel)
  exact ⟨c, h, of_decide_eq_true hp⟩

/-- C08: ply-count variant: for a constraint object that can be built with the rule on, and the ply
counts of a laminate, `is_ten_percent_rule` accepts exactly when each requested direction has its
minimum share of the plies. -/
theorem C08_counts_iff (a : ConsArgs) (c : Cons) (hc : mkConstraints a = .ok c)
    (hr : a.rule10 = true) (htot : 0 < c.pTot) (ss : Stack) (hss : ∀ x ∈ ss, x ∈ c.angles)
    (hne : ss ≠ []) :
    ∃ n, plyCounts c ss = .ok n ∧
      (isTenPercentCounts c n = .ok true ↔
        Spec.MeetsShares c.shares 0 (ss.count 0) (ss.count 90) (ss.count 45) (ss.count (-45))
          ss.length) := by
  obtain ⟨n, hn, hlen, hsum, hcnt⟩ := plyCounts_spec a c hc ss hss
  obtain ⟨_, _, _, _, _, _, _, hten⟩ := C14_angles a c hc
  obtain ⟨m0, m45, m90, m135⟩ := hten hr
  obtain ⟨i0, hi0⟩ := List.mem_iff_getElem?.1 m0
  obtain ⟨i45, hi45⟩ := List.mem_iff_getElem?.1 m45
  obtain ⟨i90, hi90⟩ := List.mem_iff_getElem?.1 m90
  obtain ⟨i135, hi135⟩ := List.mem_iff_getElem?.1 m135
  have e0 := ((C14_indices a c hc i0).1).2 hi0
  have e45 := ((C14_indices a c hc i45).2.1).2 hi45
  have e90 := ((C14_indices a c hc i90).2.2.1).2 hi90
  have e135 := ((C14_indices a c hc i135).2.2.2).2 hi135
  have hl : ss.length ≠ 0 := by simpa using hne
  have ht : (0 : ℚ) < ss.length := by
    have : 0 < ss.length := Nat.pos_of_ne_zero hl
    exact_mod_cast this
  refine ⟨n, hn, ?_⟩
  unfold isTenPercentCounts
  rw [if_pos htot]
  simp only [cntAt, e0, e45, e90, e135, (hcnt _ _ hi0).2, (hcnt _ _ hi45).2, (hcnt _ _ hi90).2,
    (hcnt _ _ hi135).2, bind, Except.bind, pure, Except.pure, hsum]
  rw [if_neg ht.ne']
  unfold Spec.MeetsShares Cons.shares
  simp only [zero_mul, add_zero]
  have h0 := share_le_iff (ss.count 0) ss.length c.p0 0 ht
  have h1 := share_le_iff (ss.count 90) ss.length c.p90 0 ht
  have h2 := share_le_iff (ss.count 45) ss.length c.p45 0 ht
  have h3 := share_le_iff (ss.count (-45)) ss.length c.p135 0 ht
  have h4 := share_le_iff ((ss.count 45 : ℚ) + ss.count (-45)) ss.length c.p45_135 0 ht
  have e : ((ss.count 45 : ℚ) / ss.length + (ss.count (-45) : ℚ) / ss.length) =
      ((ss.count 45 : ℚ) + ss.count (-45)) / ss.length := by field_simp
  simp only [zero_mul, add_zero] at h0 h1 h2 h3 h4
  rw [e, ← h0, ← h1, ← h2, ← h3, ← h4]
  split_ifs with hif
  · simp only [Except.ok.injEq, Bool.false_eq_true, false_iff]
    rintro ⟨g1, g2, g3, g4, g5⟩
    rcases hif with h | h | h | h | h
    · exact g1 h
    · exact g3 h
    · exact g2 h
    · exact g4 h
    · exact g5 h
  · simp only [not_or] at hif
    simp only [true_iff]
    exact ⟨hif.1, hif.2.2.1, hif.2.1, hif.2.2.2.1, hif.2.2.2.2⟩

/-- a concrete laminate accepted, another one refused, by both variants. -/
example : ∃ c, mkConstraints exArgs = .ok c ∧ 0 < c.pTot ∧
    isTenPercentStack c [45, -45, 0, 90, 90, 0, -45, 45] none false false = .ok true ∧
    isTenPercentStack c [45, -45, 0, 0, 0, 0, -45, 45] none false false = .ok false ∧
    isTenPercentCounts c [1, 1, 1, 1] = .ok true ∧
    isTenPercentCounts c [1, 10, 1, 1] = .ok false := by
  obtain ⟨c, h, hp⟩ := ok_of_test (mkConstraints exArgs) (fun c => decide (0 < c.pTot ∧
    isTenPercentStack c [45, -45, 0, 90, 90, 0, -45, 45] none false false = .ok true ∧
    isTenPercentStack c [45, -45, 0, 0, 0, 0, -45, 45] none false false = .ok false ∧
    isTenPercentCounts c [1, 1, 1, 1] = .ok true ∧
    isTenPercentCounts c [1, 10, 1, 1] = .ok false)) (by decide +kernel)
  exact ⟨c, h, by simpa using hp⟩

/-! ### Penalties -/

theorem shortfall_nonneg (c : Cons) (s0 s45 s90 s135 : ℚ) : 0 ≤ shortfall c s0 s45 s90 s135 := by
  unfold shortfall; positivity

theorem max_zero_eq (x : ℚ) : max 0 x = 0 ↔ x ≤ 0 := by simp

theorem shortfall_eq_zero (c : Cons) (s0 s45 s90 s135 : ℚ) :
    shortfall c s0 s45 s90 s135 = 0 ↔
      c.p0 ≤ s0 ∧ c.p90 ≤ s90 ∧ c.p45 ≤ s45 ∧ c.p135 ≤ s135 ∧ c.p45_135 ≤ s45 + s135 := by
  unfold shortfall
  have a1 : 0 ≤ max 0 (c.p0 - s0) := le_max_left _ _
  have a2 : 0 ≤ max 0 (c.p45 - s45) := le_max_left _ _
  have a3 : 0 ≤ max 0 (c.p90 - s90) := le_max_left _ _
  have a4 : 0 ≤ max 0 (c.p135 - s135) := le_max_left _ _
  have a5 : 0 ≤ max 0 (c.p45_135 - s45 - s135) := le_max_left _ _
  constructor
  · intro h
    have b1 := (max_zero_eq (c.p0 - s0)).1 (by linarith)
    have b2 := (max_zero_eq (c.p45 - s45)).1 (by linarith)
    have b3 := (max_zero_eq (c.p90 - s90)).1 (by linarith)
    have b4 := (max_zero_eq (c.p135 - s135)).1 (by linarith)
    have b5 := (max_zero_eq (c.p45_135 - s45 - s135)).1 (by linarith)
    refine ⟨?_, ?_, ?_, ?_, ?_⟩ <;> linarith
  · rintro ⟨b1, b2, b3, b4, b5⟩
    rw [(max_zero_eq _).2 (by linarith), (max_zero_eq _).2 (by linarith),
      (max_zero_eq _).2 (by linarith), (max_zero_eq _).2 (by linarith),
      (max_zero_eq _).2 (by linarith)]
    norm_num

/-- C09: the penalty of a laminate is non-negative, and zero exactly when each requested direction
has its minimum share of the plies. -/
theorem C09_penalty_ss (c : Cons) (htot : 0 < c.pTot) (ss : Stack) (hne : ss ≠ []) :
    ∃ p, calcPenalty10Ss c ss = .ok p ∧ 0 ≤ p ∧
      (p = 0 ↔ Spec.MeetsShares c.shares 0 (ss.count 0) (ss.count 90) (ss.count 45)
        (ss.count (-45)) ss.length) := by
  have hl : ss.length ≠ 0 := by simpa using hne
  have ht : (0 : ℚ) < ss.length := by
    have : 0 < ss.length := Nat.pos_of_ne_zero hl
    exact_mod_cast this
  refine ⟨shortfall c (ss.count 0 / ss.length) (ss.count 45 / ss.length) (ss.count 90 / ss.length)
        (ss.count (-45) / ss.length), ?_, shortfall_nonneg c _ _ _ _, ?_⟩
  · unfold calcPenalty10Ss
    rw [if_pos htot, if_neg hl]
  · rw [shortfall_eq_zero]
    unfold Spec.MeetsShares Cons.shares
    simp only [zero_mul, add_zero]
    have e : ((ss.count 45 : ℚ) / ss.length + (ss.count (-45) : ℚ) / ss.length) =
      ((ss.count 45 : ℚ) + ss.count (-45)) / ss.length := by field_simp
    rw [e, le_div_iff₀ ht, le_div_iff₀ ht, le_div_iff₀ ht, le_div_iff₀ ht, le_div_iff₀ ht]

/-- C09: the penalty is the sum of the missing shares: for each requested share, how much of it the
laminate lacks. -/
theorem C09_penalty_value (c : Cons) (htot : 0 < c.pTot) (ss : Stack) (hne : ss ≠ []) (p : ℚ) :
    calcPenalty10Ss c ss = .ok p ↔
      p * ss.length = max 0 (c.p0 * ss.length - ss.count 0) + max 0 (c.p90 * ss.length - ss.count 90)
        + max 0 (c.p45 * ss.length - ss.count 45) + max 0 (c.p135 * ss.length - ss.count (-45))
        + max 0 (c.p45_135 * ss.length - (ss.count 45 + ss.count (-45))) := by
  have hl : ss.length ≠ 0 := by simpa using hne
  have ht : (0 : ℚ) < ss.length := by
    have : 0 < ss.length := Nat.pos_of_ne_zero hl
    exact_mod_cast this
  have hm : ∀ a b : ℚ, max 0 (a - b / ss.length) * ss.length = max 0 (a * ss.length - b) := by
    intro a b
    rw [max_mul_of_nonneg _ _ ht.le, zero_mul, sub_mul, div_mul_cancel₀ _ ht.ne']
  unfold calcPenalty10Ss
  rw [if_pos htot, if_neg hl, Except.ok.injEq]
  rw [← mul_left_inj' ht.ne', eq_comm]
  have e : shortfall c (ss.count 0 / ss.length) (ss.count 45 / ss.length) (ss.count 90 / ss.length)
      (ss.count (-45) / ss.length) * (ss.length : ℚ) =
      max 0 (c.p0 * ss.length - ss.count 0) + max 0 (c.p90 * ss.length - ss.count 90)
        + max 0 (c.p45 * ss.length - ss.count 45) + max 0 (c.p135 * ss.length - ss.count (-45))
        + max 0 (c.p45_135 * ss.length - (ss.count 45 + ss.count (-45))) := by
    unfold shortfall
    have e5 : c.p45_135 - (ss.count 45 : ℚ) / ss.length - (ss.count (-45) : ℚ) / ss.length
        = c.p45_135 - ((ss.count 45 : ℚ) + ss.count (-45)) / ss.length := by ring
    rw [e5, add_mul, add_mul, add_mul, add_mul, hm, hm, hm, hm, hm]
    ring
  show p * _ = shortfall c _ _ _ _ * _ ↔ _
  rw [e]

/-- C09: replacing a ply at an angle without a requested share by any other ply never increases the
penalty, whatever the positions of the plies. -/
theorem C09_replace_ply (c : Cons) (htot : 0 < c.pTot) (y x : Int) (t ss ss' : Stack)
    (hy : y ≠ 0 ∧ y ≠ 90 ∧ y ≠ 45 ∧ y ≠ -45) (h1 : ss.Perm (y :: t)) (h2 : ss'.Perm (x :: t)) :
    ∃ p p', calcPenalty10Ss c ss = .ok p ∧ calcPenalty10Ss c ss' = .ok p' ∧ p' ≤ p := by
  have n1 : ss ≠ [] := fun h => by rw [h] at h1; exact absurd h1.length_eq (by simp)
  have n2 : ss' ≠ [] := fun h => by rw [h] at h2; exact absurd h2.length_eq (by simp)
  obtain ⟨p, hp, _⟩ := C09_penalty_ss c htot ss n1
  obtain ⟨p', hp', _⟩ := C09_penalty_ss c htot ss' n2
  refine ⟨p, p', hp, hp', ?_⟩
  have v1 := (C09_penalty_value c htot ss n1 p).1 hp
  have v2 := (C09_penalty_value c htot ss' n2 p').1 hp'
  have el : ss'.length = ss.length := by rw [h1.length_eq, h2.length_eq]; rfl
  have hc : ∀ z : Int, y ≠ z → ss.count z ≤ ss'.count z := by
    intro z hz
    rw [h1.count_eq, h2.count_eq, List.count_cons_of_ne hz]
    exact List.count_le_count_cons
  have c0 : ((ss.count 0 : Nat) : ℚ) ≤ ss'.count 0 := by exact_mod_cast hc 0 hy.1
  have c90 : ((ss.count 90 : Nat) : ℚ) ≤ ss'.count 90 := by exact_mod_cast hc 90 hy.2.1
  have c45 : ((ss.count 45 : Nat) : ℚ) ≤ ss'.count 45 := by exact_mod_cast hc 45 hy.2.2.1
  have c135 : ((ss.count (-45) : Nat) : ℚ) ≤ ss'.count (-45) := by exact_mod_cast hc (-45) hy.2.2.2
  have ht : (0 : ℚ) < ss.length := by
    have : 0 < ss.length := List.length_pos_iff.2 n1
    exact_mod_cast this
  rw [el] at v2
  refine le_of_mul_le_mul_right ?_ ht
  rw [v1, v2]
  gcongr

/-- C09: with the rule off, or on lamination parameters, the penalty is zero. -/
theorem C09_penalty_off (a : ConsArgs) (c : Cons) (hc : mkConstraints a = .ok c)
    (hoff : c.rule10 = false ∨ c.rule10Abdalla = true) (ss : Stack) (n : List ℚ) (areas : ℚ) :
    calcPenalty10Ss c ss = .ok 0 ∧ calcPenalty10Pc c n areas = .ok 0 := by
  obtain ⟨_, _, _, _, _, _, h, _⟩ := C14_percentages a c hc
  obtain ⟨_, _, _, _, _, ht⟩ := h hoff
  have hn : ¬ (c.pTot > 0) := by rw [ht]; exact lt_irrefl _
  unfold calcPenalty10Ss calcPenalty10Pc calcPenalty10PcRow
  rw [if_neg hn, if_neg (fun h => hn h.1), if_neg hn]
  exact ⟨rfl, rfl⟩

/-- C09: on ply counts, the penalty is the cumulated area times the penalty of a laminate with these
ply counts; hence it is zero exactly when the requested shares are met. -/
theorem C09_penalty_pc (a : ConsArgs) (c : Cons) (hc : mkConstraints a = .ok c)
    (hr : a.rule10 = true) (ss : Stack) (hss : ∀ x ∈ ss, x ∈ c.angles) (hne : ss ≠ [])
    (areas : ℚ) :
    ∃ n p, plyCounts c ss = .ok n ∧ calcPenalty10Ss c ss = .ok p ∧
      calcPenalty10Pc c n areas = .ok (areas * p) ∧ calcPenalty10PcRow c n areas = .ok (areas * p) := by
  obtain ⟨n, hn, hlen, hsum, hcnt⟩ := plyCounts_spec a c hc ss hss
  obtain ⟨_, _, _, _, _, _, _, hten⟩ := C14_angles a c hc
  obtain ⟨m0, m45, m90, m135⟩ := hten hr
  obtain ⟨i0, hi0⟩ := List.mem_iff_getElem?.1 m0
  obtain ⟨i45, hi45⟩ := List.mem_iff_getElem?.1 m45
  obtain ⟨i90, hi90⟩ := List.mem_iff_getElem?.1 m90
  obtain ⟨i135, hi135⟩ := List.mem_iff_getElem?.1 m135
  have e0 := ((C14_indices a c hc i0).1).2 hi0
  have e45 := ((C14_indices a c hc i45).2.1).2 hi45
  have e90 := ((C14_indices a c hc i90).2.2.1).2 hi90
  have e135 := ((C14_indices a c hc i135).2.2.2).2 hi135
  have hl : ss.length ≠ 0 := by simpa using hne
  have ht : (0 : ℚ) < ss.length := by
    have : 0 < ss.length := Nat.pos_of_ne_zero hl
    exact_mod_cast this
  have hs0 : n.sum ≠ 0 := by rw [hsum]; exact ht.ne'
  have hpc : calcPenalty10Pc c n areas = calcPenalty10PcRow c n areas := by
    unfold calcPenalty10Pc
    rw [if_neg (fun h => hs0 h.2)]
  by_cases htot : c.pTot > 0
  · refine ⟨n, _, hn, by unfold calcPenalty10Ss; rw [if_pos htot, if_neg hl], ?_⟩
    rw [hpc, and_self]
    unfold calcPenalty10PcRow
    rw [if_pos htot]
    simp only [cntAt, e0, e45, e90, e135, (hcnt _ _ hi0).2, (hcnt _ _ hi45).2, (hcnt _ _ hi90).2,
      (hcnt _ _ hi135).2, bind, Except.bind, pure, Except.pure, hsum]
    rw [if_neg ht.ne']
  · refine ⟨n, 0, hn, by unfold calcPenalty10Ss; rw [if_neg htot], ?_⟩
    rw [hpc, and_self]
    unfold calcPenalty10PcRow
    rw [if_neg htot, mul_zero]
    rfl

/-- C09 (violation found): a single laminate without any ply makes the ply-count penalty raise. -/
theorem C09_penalty_pc_empty_raises :
    ∃ (c : Cons) (n : List ℚ), 0 < c.pTot ∧ n.sum = 0 ∧
      calcPenalty10Pc c n 1 = .error .typeError ∧ calcPenalty10PcRow c n 1 = .ok 0 := by
  obtain ⟨c, h, hp⟩ := ok_of_test (mkConstraints exArgs) (fun c => decide (0 < c.pTot ∧
    [(0 : ℚ), 0, 0, 0].sum = 0 ∧ calcPenalty10Pc c [0, 0, 0, 0] 1 = .error .typeError ∧
    calcPenalty10PcRow c [0, 0, 0, 0] 1 = .ok 0)) (by decide +kernel)
  simp only [decide_eq_true_eq] at hp
  exact ⟨c, [0, 0, 0, 0], hp⟩

example : ∃ c, mkConstraints exArgs = .ok c ∧ 0 < c.pTot ∧
    calcPenalty10Ss c [45, -45, 0, 0, 0, 0, -45, 45] = .ok (1 / 10) := by
  obtain ⟨c, h, hp⟩ := ok_of_test (mkConstraints exArgs) (fun c => decide (0 < c.pTot ∧
    calcPenalty10Ss c [45, -45, 0, 0, 0, 0, -45, 45] = .ok (1 / 10))) (by decide +kernel)
  exact ⟨c, h, by simpa using hp⟩

end Bella
