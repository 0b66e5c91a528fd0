import Verif.Props.Membrane
/-
C33: the 10% rule in the refinement of the in-plane properties.
-/
namespace Bella

/-! ### The excess over the minimum counts -/

theorem slotOf_iff (a : Int) (s : Nat) : slotOf a = some s ↔ s < 4 ∧ a = slotAngle s := by
  unfold slotOf
  split_ifs with h0 h1 h2 h3
  · subst h0
    simp only [Option.some.injEq]
    rcases s with _ | _ | _ | _ | s <;> simp [slotAngle]
  · subst h1
    simp only [Option.some.injEq]
    rcases s with _ | _ | _ | _ | s <;> simp [slotAngle]
  · subst h2
    simp only [Option.some.injEq]
    rcases s with _ | _ | _ | _ | s <;> simp [slotAngle]
  · subst h3
    simp only [Option.some.injEq]
    rcases s with _ | _ | _ | _ | s <;> simp [slotAngle]
  · simp only [false_iff, not_and]
    intro hs
    rcases s with _ | _ | _ | _ | s <;> simp [slotAngle] <;> omega

theorem excAdd_slot (e : Nat → ℚ) (a : Int) (x : ℚ) (s : Nat) (hs : s < 4) :
    excAdd e (slotOf a) x s = e s + x * ([a].count (slotAngle s) : ℚ) := by
  unfold excAdd
  cases h : slotOf a with
  | none =>
    have : a ≠ slotAngle s := fun he => by
      have := (slotOf_iff a s).2 ⟨hs, he⟩
      rw [h] at this
      cases this
    simp [this]
  | some s' =>
    obtain ⟨h1, h2⟩ := (slotOf_iff a s').1 h
    by_cases he : s = s'
    · subst he
      simp [h2]
    · have : a ≠ slotAngle s := fun hh => by
        have := (slotOf_iff a s).2 ⟨hs, hh⟩
        rw [h] at this
        exact he (Option.some.inj this).symm
      simp [he, this]

theorem guard10One_spec (e e' : Nat → ℚ) (a1 a2 : Int) (s : Nat) (hs : s < 4) (h : guard10One e a1 a2 = some e') :
    e' s = e s - ([a1].count (slotAngle s) : ℚ) + ([a2].count (slotAngle s) : ℚ) ∧
    (0 ≤ e s → 0 ≤ e' s) := by
  unfold guard10One at h
  cases h1 : slotOf a1 with
  | none =>
    rw [h1] at h
    simp only [Option.some.injEq] at h
    have hne : a1 ≠ slotAngle s := fun he => by
      have := (slotOf_iff a1 s).2 ⟨hs, he⟩
      rw [h1] at this
      cases this
    rw [← h, excAdd_slot _ _ _ _ hs]
    have : [a1].count (slotAngle s) = 0 := by simp [hne]
    rw [this]
    have hp : (0 : ℚ) ≤ ([a2].count (slotAngle s) : ℚ) := Nat.cast_nonneg _
    refine ⟨by push_cast; ring, fun h0 => by linarith⟩
  | some s' =>
    rw [h1] at h
    dsimp only at h
    split_ifs at h with hlt
    simp only [Option.some.injEq] at h
    obtain ⟨h3, h4⟩ := (slotOf_iff a1 s').1 h1
    rw [← h, excAdd_slot _ _ _ _ hs, ← h1, excAdd_slot _ _ _ _ hs]
    have hp : (0 : ℚ) ≤ ([a2].count (slotAngle s) : ℚ) := Nat.cast_nonneg _
    refine ⟨by ring, fun h0 => ?_⟩
    by_cases he : s = s'
    · subst he
      have : [a1].count (slotAngle s) = 1 := by simp [h4]
      rw [this]
      push_cast
      linarith
    · have hne : a1 ≠ slotAngle s := fun hh => by
        have := (slotOf_iff a1 s).2 ⟨hs, hh⟩
        rw [h1] at this
        exact he (Option.some.inj this).symm
      have : [a1].count (slotAngle s) = 0 := by simp [hne]
      rw [this]
      push_cast
      linarith

theorem excPair_slot (e : Nat → ℚ) (a : Int) (x : ℚ) (s : Nat) (hs : s < 4) (ha : 0 ≤ a) :
    excPair e a x s = e s + x * ([a, partner a].count (slotAngle s) : ℚ) := by
  have hcase : s = 0 ∨ s = 1 ∨ s = 2 ∨ s = 3 := by omega
  by_cases h0 : a = 0
  · subst h0
    rcases hcase with rfl | rfl | rfl | rfl <;> simp [excPair, partner, excAdd, slotAngle]
    ring
  by_cases h9 : a = 90
  · subst h9
    rcases hcase with rfl | rfl | rfl | rfl <;> simp [excPair, partner, excAdd, slotAngle]
    ring
  by_cases h4 : a = 45
  · subst h4
    rcases hcase with rfl | rfl | rfl | rfl <;> simp [excPair, partner, excAdd, slotAngle]
  · have : [a, partner a].count (slotAngle s) = 0 := by
      rw [List.count_eq_zero]
      unfold partner
      rw [if_neg h9]
      simp only [List.mem_cons, List.not_mem_nil, or_false]
      rcases hcase with rfl | rfl | rfl | rfl <;> simp only [slotAngle] <;> omega
    rw [this]
    unfold excPair
    rw [if_neg h0, if_neg h9, if_neg h4]
    simp

theorem guard10Pair_spec (e e' : Nat → ℚ) (a1 a2 : Int) (s : Nat) (hs : s < 4) (h1 : 0 ≤ a1) (h2 : 0 ≤ a2)
    (h : guard10Pair e a1 a2 = some e') :
    e' s = e s - ([a1, partner a1].count (slotAngle s) : ℚ) + ([a2, partner a2].count (slotAngle s) : ℚ) ∧
    (0 ≤ e s → 0 ≤ e' s) := by
  unfold guard10Pair at h
  split_ifs at h with g0 g9 g4
  simp only [Option.some.injEq] at h
  rw [← h, excPair_slot _ _ _ _ hs h2, excPair_slot _ _ _ _ hs h1]
  have hp : (0 : ℚ) ≤ ([a2, partner a2].count (slotAngle s) : ℚ) := Nat.cast_nonneg _
  refine ⟨by ring, fun he => ?_⟩
  have key : ([a1, partner a1].count (slotAngle s) : ℚ) ≤ e s := by
    have hcase : s = 0 ∨ s = 1 ∨ s = 2 ∨ s = 3 := by omega
    by_cases c0 : a1 = 0
    · subst c0
      simp only [true_and, not_lt] at g0
      rcases hcase with rfl | rfl | rfl | rfl <;> simp [partner, slotAngle] <;> linarith
    · by_cases c9 : a1 = 90
      · subst c9
        simp only [true_and, not_lt] at g9
        rcases hcase with rfl | rfl | rfl | rfl <;> simp [partner, slotAngle] <;> linarith
      · by_cases c4 : a1 = 45
        · subst c4
          simp only [true_and, not_or, not_lt] at g4
          rcases hcase with rfl | rfl | rfl | rfl <;> simp [partner, slotAngle] <;> linarith [g4.1, g4.2]
        · have : [a1, partner a1].count (slotAngle s) = 0 := by
            rw [List.count_eq_zero]
            unfold partner
            rw [if_neg c9]
            simp only [List.mem_cons, List.not_mem_nil, or_false]
            rcases hcase with rfl | rfl | rfl | rfl <;> simp only [slotAngle] <;> omega
          rw [this]
          simpa using he
  linarith

/-- The excess over a minimum count which is whole, or a half in symmetric laminates, stays non-negative. -/
theorem keeps_excess {c : Cons} (A : AngleSet c) (dist : (Nat → ℚ) → ℚ) (ind : List Nat) (n : Nat) (s : Nat) (hs : s < 4)
    (K : ℚ) (hK : ∃ z : Int, 2 * K = (z : ℚ)) :
    KeepsOne c false dist ind n (fun ss q _ e =>
      e s = ((designAll c.sym ss q).count (slotAngle s) : ℚ) + K ∧ 0 ≤ e s) ∧
    KeepsTwo c false dist ind n (fun ss q _ e =>
      e s = ((designAll c.sym ss q).count (slotAngle s) : ℚ) + K ∧ 0 ≤ e s) := by
  refine ⟨?_, ?_, ?_⟩
  · intro ss q lam e ss' q' lam' e' a1 a2 hR _ hch m1 m2 hg
    unfold memGuard at hg
    rw [if_neg (by simp)] at hg
    obtain ⟨g1, g2⟩ := guard10One_spec e e' a1 a2 s hs hg
    refine ⟨?_, g2 hR.2⟩
    have hcnt := hch.cnt (slotAngle s)
    have hq : ((designAll c.sym ss' q').count (slotAngle s) : ℚ) + ([a1].count (slotAngle s) : ℚ) =
        ((designAll c.sym ss q).count (slotAngle s) : ℚ) + ([a2].count (slotAngle s) : ℚ) := by exact_mod_cast hcnt
    rw [g1, hR.1]
    linarith
  · intro ss q lam e ss' q' lam' e' a1 a2 hR _ hch m1 m2 hg
    unfold memGuard at hg
    rw [if_neg (by simp)] at hg
    obtain ⟨g1, g2⟩ := guard10Pair_spec e e' a1 a2 s hs (posAngles_mem A m1).2.1 (posAngles_mem A m2).2.1 hg
    refine ⟨?_, g2 hR.2⟩
    have hcnt := hch.cnt (slotAngle s)
    have hq : ((designAll c.sym ss' q').count (slotAngle s) : ℚ) + ([a1, partner a1].count (slotAngle s) : ℚ) =
        ((designAll c.sym ss q).count (slotAngle s) : ℚ) + ([a2, partner a2].count (slotAngle s) : ℚ) := by
      exact_mod_cast hcnt
    rw [g1, hR.1]
    linarith
  · intro ss q lam e ss' q' lam' a b s' hR _ hch hab hok
    refine ⟨fun j => if j = s then ((designAll c.sym ss' q').count (slotAngle s) : ℚ) + K else 0, ?_⟩
    simp only [if_true, true_and]
    have hcnt := hch.cnt (slotAngle s)
    unfold lastOk at hok
    rw [if_neg (by simp)] at hok
    have hok' : e s' > 1 / 2 := by simpa using hok
    obtain ⟨hR1, hR2⟩ := hR
    by_cases hc : [a].count (slotAngle s) = 0
    · rw [hc] at hcnt
      have : ((designAll c.sym ss q).count (slotAngle s) : ℚ) ≤ ((designAll c.sym ss' q').count (slotAngle s) : ℚ) := by
        exact_mod_cast (by omega)
      linarith
    · have ha : a = slotAngle s := by
        by_contra hne
        apply hc
        simp [hne]
      have hss' : s' = s := by
        have hcase : s = 0 ∨ s = 1 ∨ s = 2 ∨ s = 3 := by omega
        rcases hab with ⟨rfl, _, rfl⟩ | ⟨rfl, _, rfl⟩ <;> rcases hcase with rfl | rfl | rfl | rfl <;>
          simp [slotAngle] at ha ⊢
      subst hss'
      have hc1 : [a].count (slotAngle s') = 1 := by simp [ha]
      rw [hc1] at hcnt
      have h3 : ((designAll c.sym ss q).count (slotAngle s') : ℚ) ≤ ((designAll c.sym ss' q').count (slotAngle s') : ℚ) + 1 := by
        exact_mod_cast (by omega)
      obtain ⟨z, hz⟩ := hK
      -- the excess is a multiple of one half, so that it is at least one
      have h4 : (1 : ℚ) ≤ e s' := by
        have e2 : 2 * e s' = ((2 * ((designAll c.sym ss q).count (slotAngle s') : Int) + z : Int) : ℚ) := by
          push_cast
          rw [hR1, ← hz]
          ring
        have h5 : ((1 : Int) : ℚ) < ((2 * ((designAll c.sym ss q).count (slotAngle s') : Int) + z : Int) : ℚ) := by
          rw [← e2]
          push_cast
          linarith
        have h6 : (1 : Int) < 2 * ((designAll c.sym ss q).count (slotAngle s') : Int) + z := by exact_mod_cast h5
        have h7 : ((2 : Int) : ℚ) ≤ ((2 * ((designAll c.sym ss q).count (slotAngle s') : Int) + z : Int) : ℚ) := by
          exact_mod_cast h6
        rw [← e2] at h7
        push_cast at h7
        linarith
      linarith

theorem mini10Of_half (sym ipo odd : Bool) (a0 a90 a45 a135 a4 : Int) (s : Nat) :
    ∃ z : Int, 2 * (mini10Of sym ipo odd a0 a90 a45 a135 a4).get s = (z : ℚ) := by
  have hi : ∀ a : Int, ∃ z : Int, 2 * ((a : Int) : ℚ) = (z : ℚ) := fun a => ⟨2 * a, by push_cast; ring⟩
  have hd : ∀ a : Int, ∃ z : Int, 2 * (((a : Int) : ℚ) / 2) = (z : ℚ) := fun a => ⟨a, by ring⟩
  rcases s with _ | _ | _ | s
  · cases sym <;> cases ipo <;> cases odd <;> simp only [mini10Of, Mini10.get, if_true, Bool.false_eq_true, if_false] <;>
      first | exact hi _ | exact hd _
  · cases sym <;> cases ipo <;> cases odd <;> simp only [mini10Of, Mini10.get, if_true, Bool.false_eq_true, if_false] <;>
      first | exact hi _ | exact hd _
  · exact hi _
  · exact hi _

/-- The minima of calc_mini_10 are whole, or halves. -/
theorem mini_half (c : Cons) (n s : Nat) : ∃ z : Int, 2 * (calcMini10 c n).get s = (z : ℚ) :=
  mini10Of_half _ _ _ _ _ _ _ _ _

/-- The initial excess. -/
theorem calcExcess10_spec (sym : Bool) (ss : Stack) (q : List Int) (mini : Mini10) (e : Nat → ℚ)
    (h : calcExcess10 sym ss q mini = .ok e) :
    (sym = true → ss.length % 2 ≠ 0 → nth ss (ss.length / 2) = 0 ∨ nth ss (ss.length / 2) = 90) ∧
    ∀ s, s < 4 → e s = ((designAll sym ss q).count (slotAngle s) : ℚ) +
      (((midPly sym ss).count (slotAngle s) : ℚ) / 2 - mini.get s) := by
  unfold calcExcess10 at h
  have hs6 : ∀ s, slotAngle s ≠ 666 := by
    intro s
    rcases s with _ | _ | _ | s <;> simp [slotAngle]
  cases sym
  · simp only [Bool.false_eq_true, if_false, Except.ok.injEq] at h
    refine ⟨by simp, ?_⟩
    intro s _
    rw [← h, designAll_count _ _ _ _ (hs6 s)]
    simp [designHalf, midPly]
    ring
  · simp only [if_true] at h
    split_ifs at h with h1
    simp only [Except.ok.injEq] at h
    have hm : ss.length % 2 ≠ 0 → nth ss (ss.length / 2) = 0 ∨ nth ss (ss.length / 2) = 90 := by
      intro h2
      by_contra h3
      rw [not_or] at h3
      exact h1 ⟨h2, h3.1, h3.2⟩
    refine ⟨fun _ => hm, ?_⟩
    intro s hs
    have key : (if ss.length % 2 ≠ 0 ∧ s < 2 ∧ nth ss (ss.length / 2) = slotAngle s then (1 : ℚ) / 2 else 0) =
        ((midPly true ss).count (slotAngle s) : ℚ) / 2 := by
      unfold midPly
      by_cases h2 : ss.length % 2 ≠ 0
      · have h3 : s < 2 ∨ nth ss (ss.length / 2) ≠ slotAngle s := by
          have hcase : s = 0 ∨ s = 1 ∨ s = 2 ∨ s = 3 := by omega
          rcases hm h2 with h4 | h4 <;> rw [h4] <;> rcases hcase with rfl | rfl | rfl | rfl <;> simp [slotAngle]
        by_cases h4 : nth ss (ss.length / 2) = slotAngle s
        · have h5 : s < 2 := by
            rcases h3 with h3 | h3
            · exact h3
            · exact absurd h4 h3
          rw [if_pos ⟨h2, h5, h4⟩, if_pos ⟨rfl, h2⟩, h4]
          simp
        · rw [if_neg (fun hh => h4 hh.2.2), if_pos ⟨rfl, h2⟩]
          simp [h4]
      · rw [if_neg (fun hh => h2 hh.1), if_neg (fun hh => h2 hh.2)]
        simp
    rw [← h, designAll_count _ _ _ _ (hs6 s)]
    simp only [designHalf, if_true]
    rw [key]
    push_cast
    ring

/-- Counts per half of the ply content. -/
theorem perHalf_content (sym : Bool) (ss : Stack) (q : List Int) (hs : sym = true → Spec.Symmetric ss) (x : Int)
    (hx : x ≠ 666) :
    Spec.perHalf sym (Spec.plyContent sym ss q) x =
      ((designAll sym ss q).count x : ℚ) + ((midPly sym ss).count x : ℚ) / 2 := by
  unfold Spec.perHalf
  rw [plyContent_count sym ss q hs x hx]
  cases sym
  · simp [midPly]
  · simp only [if_true]
    push_cast
    ring

/-- C33: with the rule on ply counts, the candidates keep the minimum number of plies in each of the directions
0, 90, +45, -45: a minimum of `calc_mini_10` which the input reaches is reached by all the candidates. -/
theorem C33_minimum_counts (args : ConsArgs) (c : Cons) (hc : mkConstraints args = .ok c)
    (habd : (c.rule10 && c.rule10Abdalla) = false) (imported switch : Bool)
    (dist : (Nat → ℚ) → ℚ) (attr : DamTolAttr) (D : MemData) (cs : Int → Nat → ℚ) (fuel : Nat)
    (ss : Stack) (q : List Int) (hin : MemInput c D cs ss q) (out : List (Stack × List Int))
    (h : repairMembrane imported switch dist c attr D (calcMini10 c ss.length) fuel ss q = some (.ok out)) :
    ∀ x ∈ out,
      ((calcMini10 c ss.length).m0 ≤ Spec.perHalf c.sym (Spec.plyContent c.sym ss q) 0 →
        (calcMini10 c ss.length).m0 ≤ Spec.perHalf c.sym (Spec.plyContent c.sym x.1 x.2) 0) ∧
      ((calcMini10 c ss.length).m90 ≤ Spec.perHalf c.sym (Spec.plyContent c.sym ss q) 90 →
        (calcMini10 c ss.length).m90 ≤ Spec.perHalf c.sym (Spec.plyContent c.sym x.1 x.2) 90) ∧
      (((calcMini10 c ss.length).m45 : ℚ) ≤ Spec.perHalf c.sym (Spec.plyContent c.sym ss q) 45 →
        ((calcMini10 c ss.length).m45 : ℚ) ≤ Spec.perHalf c.sym (Spec.plyContent c.sym x.1 x.2) 45) ∧
      (((calcMini10 c ss.length).m135 : ℚ) ≤ Spec.perHalf c.sym (Spec.plyContent c.sym ss q) (-45) →
        ((calcMini10 c ss.length).m135 : ℚ) ≤ Spec.perHalf c.sym (Spec.plyContent c.sym x.1 x.2) (-45)) := by
  have A := angleSet_of args c hc
  rcases membrane_cases h with rfl | ⟨st, hst, rfl⟩
  · intro x hx
    rw [List.mem_singleton] at hx
    subst hx
    exact ⟨id, id, id, id⟩
  · intro y hy
    obtain ⟨x, hx, rfl⟩ := List.mem_map.1 hy
    have key : ∀ s, s < 4 → (calcMini10 c ss.length).get s ≤ Spec.perHalf c.sym (Spec.plyContent c.sym ss q) (slotAngle s) →
        (calcMini10 c ss.length).get s ≤ Spec.perHalf c.sym (Spec.plyContent c.sym x.ss x.queue) (slotAngle s) := by
      intro s hs h0
      have hs6 : slotAngle s ≠ 666 := by rcases s with _ | _ | _ | s <;> simp [slotAngle]
      obtain ⟨ss1, hss1⟩ : ∃ s1, s1 = ss := ⟨ss, rfl⟩
      have hK : ∃ z : Int, 2 * (((midPly c.sym ss).count (slotAngle s) : ℚ) / 2 - (calcMini10 c ss.length).get s) = (z : ℚ) := by
        obtain ⟨z, hz⟩ := mini_half c ss.length s
        refine ⟨((midPly c.sym ss).count (slotAngle s) : Int) - z, ?_⟩
        push_cast
        rw [← hz]
        ring
      have hk := keeps_excess A dist (indices1 c attr D.pA ss.length) ss.length s hs _ hK
      rw [← hss1] at hk
      rw [perHalf_content _ _ _ hin.symm _ hs6] at h0
      obtain ⟨lam, hl, hO⟩ := repairMembrane1_out A imported dist attr D _ fuel ss q hin.size hin.plies hin.queue hin.symm
        (fun ss q _ e => e s = ((designAll c.sym ss q).count (slotAngle s) : ℚ) +
          (((midPly c.sym ss1).count (slotAngle s) : ℚ) / 2 - (calcMini10 c ss1.length).get s) ∧ 0 ≤ e s)
        (fun lam e _ he => by
          have h2 := (calcExcess10_spec _ _ _ _ _ (he habd)).2 s hs
          rw [hss1]
          refine ⟨h2, ?_⟩
          rw [h2]
          linarith)
        (fun _ => by rw [habd, ← hss1]; exact hk.1) (fun _ => by rw [habd, ← hss1]; exact hk.2)
        (fun lam hl => hin.obj A lam hl) st hst
      obtain ⟨⟨⟨F, T, h1, h2⟩, _, _⟩, e, hR⟩ := hO.outs x hx
      obtain ⟨f1, _, _, _⟩ := reach_facts (indices1_ok c attr D.pA ss.length) hin.plies hin.queue h1 h2
      rw [perHalf_content _ _ _ h1.symm _ hs6, f1]
      have g1 := hR.1
      have g2 := hR.2
      rw [hss1] at g1
      linarith
    exact ⟨key 0 (by omega), key 1 (by omega), key 2 (by omega), key 3 (by omega)⟩

/-- The number of marks is the number of plies of the queue (per half). -/
theorem content_length (sym : Bool) (ss : Stack) (q : List Int)
    (h : ss.count 666 = (if sym then 2 else 1) * q.length) : (Spec.plyContent sym ss q).length = ss.length := by
  have e : (Spec.knownPlies ss).length + ss.count 666 = ss.length := by
    unfold Spec.knownPlies
    rw [List.count_eq_countP, ← List.countP_eq_length_filter, Nat.add_comm]
    rw [List.length_eq_countP_add_countP (fun x => x == (666 : Int)) (l := ss)]
    congr 2
    funext x
    simp
  unfold Spec.plyContent
  rw [List.length_append, List.length_append]
  cases sym
  · simp only [Bool.false_eq_true, if_false, List.length_nil] at h ⊢
    omega
  · simp only [if_true] at h ⊢
    omega

theorem fullStack_symm (ss : Stack) (q : List Int) : Spec.Symmetric (fullStack true ss q) := by
  unfold Spec.Symmetric fullStack midPly
  simp only [if_true]
  split_ifs <;> simp

theorem fullStack_mid (ss : Stack) (q : List Int)
    (hm : ss.length % 2 ≠ 0 → nth ss (ss.length / 2) = 0 ∨ nth ss (ss.length / 2) = 90) :
    Spec.Middle0or90 (fullStack true ss q) := by
  unfold Spec.Middle0or90 fullStack midPly
  simp only [if_true, true_and]
  intro hodd
  split_ifs at hodd ⊢ with h1
  · have e : (designAll true ss q ++ [nth ss (ss.length / 2)] ++ (designAll true ss q).reverse).length / 2 =
        (designAll true ss q).length := by simp; omega
    rw [e, List.append_assoc, List.getElem?_append_right (le_refl _)]
    simp only [Nat.sub_self, List.cons_append, List.getElem?_cons_zero, Option.some.injEq]
    exact hm h1
  · exfalso
    simp at hodd
    omega

/-- The minima of calc_mini_10 are reached by the ply content exactly when it has the requested shares. -/
theorem content_shares {c : Cons} (ss : Stack) (q : List Int) (hs : c.sym = true → Spec.Symmetric ss)
    (hq : (666 : Int) ∉ q)
    (hm : c.sym = true → ss.length % 2 ≠ 0 → nth ss (ss.length / 2) = 0 ∨ nth ss (ss.length / 2) = 90)
    (hlen : ss.count 666 = (if c.sym then 2 else 1) * q.length)
    (hb : c.ipo = true → Spec.Balanced (Spec.plyContent c.sym ss q)) :
    (let m := calcMini10 c ss.length
     m.m0 ≤ Spec.perHalf c.sym (Spec.plyContent c.sym ss q) 0 ∧ m.m90 ≤ Spec.perHalf c.sym (Spec.plyContent c.sym ss q) 90 ∧
     (m.m45 : ℚ) ≤ Spec.perHalf c.sym (Spec.plyContent c.sym ss q) 45 ∧
     (m.m135 : ℚ) ≤ Spec.perHalf c.sym (Spec.plyContent c.sym ss q) (-45) ∧
     (m.m45_135 : ℚ) ≤ Spec.perHalf c.sym (Spec.plyContent c.sym ss q) 45 + Spec.perHalf c.sym (Spec.plyContent c.sym ss q) (-45)) ↔
    Spec.MeetsShares c.shares 0 ((Spec.plyContent c.sym ss q).count 0)
      ((Spec.plyContent c.sym ss q).count 90) ((Spec.plyContent c.sym ss q).count 45)
      ((Spec.plyContent c.sym ss q).count (-45)) ss.length := by
  have hmid : (666 : Int) ∉ midPly c.sym ss := by
    unfold midPly
    split_ifs with h
    · rw [List.mem_singleton]
      rcases hm h.1 h.2 with h1 | h1 <;> rw [h1] <;> decide
    · simp
  have hp := fullStack_perm c.sym ss q hs hq hmid
  have hl : (fullStack c.sym ss q).length = ss.length := by
    rw [hp.length_eq, content_length _ _ _ hlen]
  have key := C24_iff c (fullStack c.sym ss q)
    (fun h => by
      rw [h]
      exact ⟨fullStack_symm ss q, fullStack_mid ss q (hm h)⟩)
    (fun h => by
      intro a h0 h9 h9'
      rw [hp.count_eq, hp.count_eq]
      exact hb h a h0 h9 h9')
  unfold Spec.perHalf at *
  simp only [hp.count_eq, hl] at key
  exact key

/-- Without balance, the minima for +45 and -45 cover the minimum for both if the requested shares do. -/
theorem mini_combined (c : Cons) (n : Nat) (h : c.ipo = false) (hsum : c.p45_135 ≤ c.p45 + c.p135) :
    (calcMini10 c n).m45_135 ≤ (calcMini10 c n).m45 + (calcMini10 c n).m135 := by
  have h4 : ⌈c.p45_135 * n⌉ ≤ ⌈c.p45 * n⌉ + ⌈c.p135 * n⌉ := by
    refine le_trans (Int.ceil_le_ceil ?_) (Int.ceil_add_le _ _)
    rw [← add_mul]
    exact mul_le_mul_of_nonneg_right hsum (Nat.cast_nonneg n)
  unfold calcMini10 mini10Of
  simp only [h, Bool.false_eq_true, if_false]
  split_ifs
  · simp only [ceilDiv]
    omega
  · simp only [ceilDiv]
    omega
  · exact h4

/-- C33: with the rule on ply counts, if the ply content of the input has the requested shares, so has the ply
content of each candidate: for balanced designs, or when the share requested for +45 and -45 together is not more
than the sum of those requested for each. -/
theorem C33_ten_percent (args : ConsArgs) (c : Cons) (hc : mkConstraints args = .ok c)
    (habd : (c.rule10 && c.rule10Abdalla) = false) (imported switch : Bool)
    (dist : (Nat → ℚ) → ℚ) (attr : DamTolAttr) (D : MemData) (cs : Int → Nat → ℚ) (fuel : Nat)
    (ss : Stack) (q : List Int) (hin : MemInput c D cs ss q)
    (hlen : ss.count 666 = (if c.sym then 2 else 1) * q.length)
    (hmid : c.sym = true → ss.length % 2 = 1 → ss[ss.length / 2]? = some 0 ∨ ss[ss.length / 2]? = some 90)
    (hcomb : c.ipo = true ∧ Spec.Balanced (Spec.plyContent c.sym ss q) ∨
      c.ipo = false ∧ c.p45_135 ≤ c.p45 + c.p135)
    (hsh : Spec.MeetsShares c.shares 0 ((Spec.plyContent c.sym ss q).count 0)
      ((Spec.plyContent c.sym ss q).count 90) ((Spec.plyContent c.sym ss q).count 45)
      ((Spec.plyContent c.sym ss q).count (-45)) ss.length)
    (out : List (Stack × List Int))
    (h : repairMembrane imported switch dist c attr D (calcMini10 c ss.length) fuel ss q = some (.ok out)) :
    ∀ x ∈ out, Spec.MeetsShares c.shares 0 ((Spec.plyContent c.sym x.1 x.2).count 0)
      ((Spec.plyContent c.sym x.1 x.2).count 90) ((Spec.plyContent c.sym x.1 x.2).count 45)
      ((Spec.plyContent c.sym x.1 x.2).count (-45)) ss.length := by
  intro x hx
  have A := angleSet_of args c hc
  obtain ⟨_, hcand⟩ := C33_candidates args c hc imported switch dist attr D cs _ fuel ss q hin out h
  obtain ⟨e1, e2, e3, e4, e5, e6, _, e8⟩ := hcand x hx
  have hmin := C33_minimum_counts args c hc habd imported switch dist attr D cs fuel ss q hin out h x hx
  have hmid' : c.sym = true → ss.length % 2 ≠ 0 → nth ss (ss.length / 2) = 0 ∨ nth ss (ss.length / 2) = 90 := by
    intro hs ho
    have := hmid hs (by omega)
    rw [nth_some (by omega : ss.length / 2 < ss.length)] at this
    simpa using this
  have hq6 : ∀ (p : List Int), (∀ a ∈ p, a ∈ c.angles) → (666 : Int) ∉ p := fun p hp h => ne666 A (hp _ h) rfl
  have hmx : c.sym = true → x.1.length % 2 ≠ 0 → nth x.1 (x.1.length / 2) = 0 ∨ nth x.1 (x.1.length / 2) = 90 := by
    intro hs ho
    have h1 := e8 hs (by omega)
    rw [nth_some (by omega : ss.length / 2 < ss.length), nth_some (by omega : ss.length / 2 < x.1.length)] at h1
    rw [e1, Option.some.inj h1]
    exact hmid' hs (by omega)
  have hlx : x.1.count 666 = (if c.sym then 2 else 1) * x.2.length := by
    rw [e2, ← hlen]
    have : x.1.map (fun a => decide (a = 666)) = ss.map (fun a => decide (a = 666)) := by
      apply List.ext_getElem?
      intro i
      rw [List.getElem?_map, List.getElem?_map]
      have h3 := e3 i
      by_cases hi : i < ss.length
      · rw [nth_some hi, nth_some (by omega : i < x.1.length)] at h3 ⊢
        simp only [Option.some.injEq] at h3
        simp [h3]
      · rw [List.getElem?_eq_none (by omega), List.getElem?_eq_none (by omega)]
    have h4 := congrArg (List.countP (fun b => b)) this
    rw [List.countP_map, List.countP_map] at h4
    rw [List.count_eq_countP, List.count_eq_countP]
    have e : (fun a : Int => a == 666) = ((fun b => b) ∘ fun a : Int => decide (a = 666)) := by
      funext a
      simp only [Function.comp]
      by_cases h : a = 666 <;> simp [h]
    rw [e]
    exact h4
  rcases hcomb with ⟨hipo, hb⟩ | ⟨hipo, hsum⟩
  · have hbx := C33_balance args c hc hipo imported switch dist attr D cs _ fuel ss q hin hb out h x hx
    have h1 := (content_shares ss q hin.symm (hq6 q hin.queue) hmid' hlen (fun _ => hb)).2 hsh
    have h2 := content_shares x.1 x.2 e4 (hq6 x.2 e6) hmx hlx (fun _ => hbx)
    rw [e1] at h2
    rw [← h2]
    have hC := (C24_balanced c ss.length hipo).2
    have hC' : ((calcMini10 c ss.length).m45_135 : ℚ) ≤ (calcMini10 c ss.length).m45 + (calcMini10 c ss.length).m135 := by
      exact_mod_cast hC
    have g45 := hmin.2.2.1 h1.2.2.1
    have g135 := hmin.2.2.2 h1.2.2.2.1
    exact ⟨hmin.1 h1.1, hmin.2.1 h1.2.1, g45, g135, by linarith⟩
  · have h1 := (content_shares ss q hin.symm (hq6 q hin.queue) hmid' hlen (fun hh => by rw [hipo] at hh; cases hh)).2 hsh
    have g0 := hmin.1 h1.1
    have g90 := hmin.2.1 h1.2.1
    have g45 := hmin.2.2.1 h1.2.2.1
    have g135 := hmin.2.2.2 h1.2.2.2.1
    have h2 := content_shares x.1 x.2 e4 (hq6 x.2 e6) hmx hlx (fun hh => by rw [hipo] at hh; cases hh)
    rw [e1] at h2
    rw [← h2]
    have hC' : ((calcMini10 c ss.length).m45_135 : ℚ) ≤ (calcMini10 c ss.length).m45 + (calcMini10 c ss.length).m135 := by
      exact_mod_cast mini_combined c ss.length hipo hsum
    exact ⟨g0, g90, g45, g135, by linarith⟩

end Bella
