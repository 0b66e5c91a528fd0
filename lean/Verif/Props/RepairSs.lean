import Verif.Proofs.RepairSs
import Verif.Props.RepairAbdalla
import Verif.Props.RepairDisoContig
import Verif.Props.RepairFlexural
/-
C59: the repair of one laminate, `repair_ss`.
-/
namespace Bella

/-! ### The plies of a repaired laminate -/

/-- A symmetric laminate with as many marks as twice the plies of the queue has no mark in the middle. -/
theorem middle_known {s : Stack} {q : List Int} (hs : Spec.Symmetric s) (hc : s.count 666 = 2 * q.length)
    (hodd : s.length % 2 = 1) : nth s (s.length / 2) ≠ 666 := by
  intro h6
  have hlt : s.length / 2 < s.length := by omega
  have hc6 := symmetric_count s hs 666
  have h5 : (s.drop (s.length / 2)).take (s.length % 2) = [nth s (s.length / 2)] := by
    rw [hodd]
    unfold nth
    rw [List.getD_eq_getElem _ _ hlt, List.drop_eq_getElem_cons hlt]
    rfl
  rw [h5, h6] at hc6
  simp at hc6
  omega

theorem half_marks {s : Stack} {q : List Int} (hs : Spec.Symmetric s) (hc : s.count 666 = 2 * q.length) :
    (s.take (s.length / 2)).count 666 = q.length := by
  have hc6 := symmetric_count s hs 666
  rcases Nat.mod_two_eq_zero_or_one s.length with h | h
  · rw [h] at hc6
    simp at hc6
    omega
  · have hm := middle_known hs hc h
    have hlt : s.length / 2 < s.length := by omega
    have h5 : (s.drop (s.length / 2)).take (s.length % 2) = [nth s (s.length / 2)] := by
      rw [h]
      unfold nth
      rw [List.getD_eq_getElem _ _ hlt, List.drop_eq_getElem_cons hlt]
      rfl
    rw [h5, List.count_singleton] at hc6
    simp [hm] at hc6
    omega

theorem known_eq (l : Stack) : knownPlies l = Spec.knownPlies l := by
  unfold knownPlies Spec.knownPlies
  apply List.filter_congr
  intro x _
  simp

/-- The repair for disorientation and contiguity uses the plies kept and those of the queue. -/
theorem reorders_content {c : Cons} (hc : ContigCons c) {attr : DamTolAttr} {nD1 : Nat} {s : Stack} {q : List Int}
    (h : Repairable c attr s q) (hs : c.sym = true → Spec.Symmetric s) {res : Stack} {inward outward : Bool}
    (hres : repairDisoContig c attr nD1 s q = .ok (res, inward, outward)) :
    res.length = s.length ∧ (c.sym = true → Spec.Symmetric res) ∧ res.Perm (Spec.plyContent c.sym s q) ∧
    (inward = true → outward = true) ∧ res.take (nKeptIn c attr) = s.take (nKeptIn c attr) ∧
    res.drop (s.length - nKeptIn c attr) = s.drop (s.length - nKeptIn c attr) := by
  cases hsy : c.sym with
  | false =>
    obtain ⟨r, i, o, e, h1, h2, h3, h3', h4⟩ := C27_reorders_asymmetric hc attr nD1 s q hsy h
    rw [hres] at e
    cases e
    refine ⟨h2, by simp, ?_, h1, h3, h3'⟩
    unfold Spec.plyContent
    rw [known_eq] at h4
    simpa using h4
  | true =>
    obtain ⟨r, i, o, e, h1, h2, h3, h4, h5, h6⟩ := C27_reorders_symmetric hc attr nD1 s q hsy h
    rw [hres] at e
    cases e
    rw [known_eq] at h6
    refine ⟨h2, fun _ => h3, ?_, h1, h4, ?_⟩
    · rw [List.perm_iff_count]
      intro x
      have e1 := symmetric_count res h3 x
      have e2 := symmetric_count s (hs hsy) x
      rw [h2, h6.count_eq, List.count_append] at e1
      have emid : ((res.drop (s.length / 2)).take (s.length % 2)) = ((s.drop (s.length / 2)).take (s.length % 2)) := by
        rcases Nat.mod_two_eq_zero_or_one s.length with hp | hp
        · rw [hp]; simp
        · have hlt : s.length / 2 < s.length := by omega
          have h5' := h5 hp
          rw [List.getElem?_eq_getElem (by omega), List.getElem?_eq_getElem (by omega), Option.some.injEq] at h5'
          rw [hp, List.drop_eq_getElem_cons (by omega : s.length / 2 < res.length),
            List.drop_eq_getElem_cons (by omega : s.length / 2 < s.length), h5']
          rfl
      rw [emid] at e1
      unfold Spec.plyContent
      rw [List.count_append, List.count_append, if_pos rfl]
      by_cases hx : x = 666
      · subst hx
        have n1 : (Spec.knownPlies s).count 666 = 0 := by
          rw [List.count_eq_zero]; exact not_mem_known _
        have n2 : (Spec.knownPlies (s.take (s.length / 2))).count 666 = 0 := by
          rw [List.count_eq_zero]; exact not_mem_known _
        have n3 : q.count 666 = 0 := List.count_eq_zero.mpr h.angles
        have n4 : ((s.drop (s.length / 2)).take (s.length % 2)).count 666 = 0 := by
          rw [List.count_eq_zero]
          rcases Nat.mod_two_eq_zero_or_one s.length with hp | hp
          · rw [hp]; simp
          · have hlt : s.length / 2 < s.length := by omega
            rw [hp, List.drop_eq_getElem_cons hlt]
            have := h.middle hsy hp
            rw [nth_eq_getElem _ _ hlt] at this
            rw [List.take_one, List.head?_cons]
            simpa using fun h => this h.symm
        omega
      · rw [count_known_of_ne _ _ hx] at e1 ⊢
        omega
    · have hk : nKeptIn c attr ≤ s.length / 2 := by
        have := h.len
        have := nKeptIn_le c attr
        omega
      apply List.ext_getElem?
      intro j
      rw [List.getElem?_drop, List.getElem?_drop]
      by_cases hj : s.length - nKeptIn c attr + j < s.length
      · have a1 := symmetric_iff_nth res |>.mp h3 (s.length - nKeptIn c attr + j) (by omega)
        have a2 := symmetric_iff_nth s |>.mp (hs hsy) (s.length - nKeptIn c attr + j) (by omega)
        rw [nth_some (by omega), nth_some (by omega), ← a1, ← a2, h2]
        congr 1
        have hm : s.length - 1 - (s.length - nKeptIn c attr + j) < nKeptIn c attr := by omega
        have e := congrArg (fun l => l[s.length - 1 - (s.length - nKeptIn c attr + j)]?) h4
        simp only [List.getElem?_take, if_pos hm] at e
        rw [nth_some (by omega), nth_some (by omega), Option.some.injEq] at e
        exact e
      · rw [List.getElem?_eq_none (by omega), List.getElem?_eq_none (by omega)]

/-! ### Step 1 -/

/-- The middle ply after the first step. -/
theorem repair10Bal2_middle (c : Cons) (mini : Mini10) (ss : Stack) (hen : c.ipo = true ∨ c.rule10 = true)
    (hsy : c.sym = true) (hodd : ss.length % 2 = 1) :
    nth (repair10Bal2 c mini ss).1 (ss.length / 2) = 0 ∨ nth (repair10Bal2 c mini ss).1 (ss.length / 2) = 90 := by
  have hl := fixMiddle_length c.sym ss
  have hfix : nth (fixMiddle c.sym ss) (ss.length / 2) = 0 ∨ nth (fixMiddle c.sym ss) (ss.length / 2) = 90 := by
    unfold fixMiddle
    split_ifs with h
    · left
      rw [nth_set _ _ _ _ (by omega), if_pos rfl]
    · by_contra h2
      exact h ⟨hsy, by omega, h2⟩
  unfold repair10Bal2
  rw [if_neg (by rintro ⟨h1, h2⟩; simp [h1, h2] at hen)]
  dsimp only
  cases (queueLoop c.ipo ((indPlies c.sym (fixMiddle c.sym ss).length).map (nth (fixMiddle c.sym ss)))
      (initQueue c mini) (initMissing c mini) 0).2.2 with
  | none => exact hfix
  | some k =>
    dsimp only
    rw [clearPlies_nth _ _ _ _ (by omega) (fun j hj => indPlies_lt c.sym _ j (List.mem_of_mem_drop hj)), hl]
    have a1 : ss.length / 2 ∉ (indPlies c.sym ss.length).drop k := by
      intro h
      have := List.mem_of_mem_drop h
      unfold indPlies at this
      rw [if_pos hsy, List.mem_range] at this
      omega
    rw [if_neg (by
      rintro (h | h)
      · exact a1 h
      · rw [(by omega : ss.length - 1 - ss.length / 2 = ss.length / 2)] at h
        exact a1 h.2)]
    exact hfix

/-- With the rule of Abdalla the marks are those of the first step. -/
theorem abd_marks (a : ConsArgs) (c : Cons) (hc : mkConstraints a = .ok c)
    (h10 : c.rule10 = true) (hab : c.rule10Abdalla = true) (dist : (Nat → ℚ) → ℚ) (attr : DamTolAttr)
    (D : MemData) (mini : Mini10) (fuel : Nat) (ss : Stack) (hn : ss.length ≤ 6666)
    (hang : ∀ x ∈ ss, x ∈ c.angles) (hs : c.sym = true → Spec.Symmetric ss) (out : Stack × List Int)
    (h : repair10Bal dist c attr D mini fuel ss = some (.ok out)) (i : Nat) :
    i < ss.length → (nth out.1 i = 666 ↔ nth (repair10Bal2 c (calcMini10 c ss.length) ss).1 i = 666) := by
  have A := angleSet_of a c hc
  obtain ⟨g1, g2, g3, g4, g5, g6, g7, g8⟩ := abd_first a c hc h10 hab ss hs hang
  rw [repair10Bal_cases h10 hab] at h
  generalize repair10Bal2 c (calcMini10 c ss.length) ss = r at *
  obtain ⟨s, q⟩ := r
  dsimp only at *
  cases hrun : abdRun dist c attr D fuel s q with
  | none => rw [hrun] at h; cases h
  | some e =>
    cases e with
    | error e => rw [hrun] at h; cases h
    | ok st =>
      rw [hrun] at h
      cases h
      dsimp only
      obtain ⟨r1, r2, r3, r4⟩ := abdRun_spec A dist attr D fuel s q (by omega) g5 g6 g3 _
        (fun _ x _ _ _ => by omega) (keeps_balance A (indices1 c attr 100 s.length) s q) st hrun
      obtain ⟨F, T, c1, c2⟩ := r1.reach
      have c1' : PlyChanges c.sym (fun i => i ∈ indices1 c attr 100 s.length) s q st.ss st.queue F T := c1
      intro hi
      exact c1'.mark i (by omega)

/-- The laminates for which the theorems below describe the repair: a valid constraint object, allowed ply
angles (0 among them), a symmetric laminate when symmetry is required, objective functions below 10^10
(the value with which the program starts), and enough plies for the minimum counts of the 10% rule besides the
outermost plies, which the repair for disorientation and contiguity does not place. -/
structure RepairCase (a : ConsArgs) (P : RepairSetup) (cs : Int → Nat → ℚ) (ss : Stack) : Prop where
  cons : mkConstraints a = .ok P.c
  contig : ContigCons P.c
  size : ss.length ≤ 6666
  plies : ∀ x ∈ ss, x ∈ P.c.angles
  zero : (0 : Int) ∈ P.c.angles
  symm : P.c.sym = true → Spec.Symmetric ss
  trig : ∀ (r : Nat) (x : Int), P.c.angles[r]? = some x → ∀ k, P.mem.cosSin r k = cs x k
  bound : ∀ r : List Int, r.length = ss.length → (∀ x ∈ r, x ∈ P.c.angles) →
    Spec.inPlaneObjective P.mem.coeffs P.mem.target (Spec.inPlane cs ss.length r) ≤ 10 ^ 10
  flexBound : ∀ r : Stack, Spec.flexObjective P.flex.cs P.flex.coeffs P.flex.target r ≤ 10 ^ 10
  nD2 : 2 ≤ P.nD2
  room : (⌈(calcMini10 P.c ss.length).m0⌉ + ⌈(calcMini10 P.c ss.length).m90⌉ +
      max ((calcMini10 P.c ss.length).m45 + (calcMini10 P.c ss.length).m135) (calcMini10 P.c ss.length).m45_135 +
      (if P.c.sym then 2 else 4) * (if P.c.damTol = true ∧ P.attr.twoPlies = true then 2 else 1) : Int) ≤
    Spec.designPlies P.c.sym ss.length

theorem nKeptOut_eq (c : Cons) (attr : DamTolAttr) :
    nKeptOut c attr = if c.damTol = true ∧ attr.twoPlies = true then 2 else 1 := by
  unfold nKeptOut twoProtected
  cases c.damTol <;> cases attr.twoPlies <;> rfl

/-- What step 1 hands over. -/
structure Step1 (P : RepairSetup) (cs : Int → Nat → ℚ) (ss s : Stack) (q : List Int) : Prop where
  len : s.length = ss.length
  symm : P.c.sym = true → Spec.Symmetric s
  marks : s.count 666 = (if P.c.sym then 2 else 1) * q.length
  plies : ∀ x ∈ s, x = 666 ∨ x ∈ P.c.angles
  queue : ∀ x ∈ q, x ∈ P.c.angles
  bal : P.c.bal = true → Spec.Balanced (Spec.plyContent P.c.sym s q)
  shares : Spec.MeetsShares P.c.shares 0 ((Spec.plyContent P.c.sym s q).count 0)
      ((Spec.plyContent P.c.sym s q).count 90) ((Spec.plyContent P.c.sym s q).count 45)
      ((Spec.plyContent P.c.sym s q).count (-45)) ss.length
  abd : (P.c.rule10 && P.c.rule10Abdalla) = true →
    P.dist (Spec.inPlane cs ss.length (Spec.plyContent P.c.sym s q)) ≤ 1 / 10 ^ 10
  mid : (P.c.rule10 && P.c.rule10Abdalla) = false → (P.c.ipo = true ∨ P.c.rule10 = true) → P.c.sym = true →
    ss.length % 2 = 1 → s[ss.length / 2]? = some 0 ∨ s[ss.length / 2]? = some 90
  outer : ∀ i, i < nKeptOut P.c P.attr → nth s i ≠ 666 ∧ nth s (ss.length - 1 - i) ≠ 666
  kept : P.c.damTol = true → ∀ i, i < nKeptOut P.c P.attr → nth s i = nth ss i ∧
    nth s (ss.length - 1 - i) = nth ss (ss.length - 1 - i)

theorem RepairCase.long {a : ConsArgs} {P : RepairSetup} {cs : Int → Nat → ℚ} {ss : Stack}
    (H : RepairCase a P cs ss) : 2 * nKeptOut P.c P.attr < ss.length ∧
    ((initQueue P.c (calcMini10 P.c ss.length)).length : Int) + initMissing P.c (calcMini10 P.c ss.length) +
      (if P.c.sym then 2 else 4) * (nKeptOut P.c P.attr : Int) ≤ Spec.designPlies P.c.sym ss.length ∧
    0 ≤ initMissing P.c (calcMini10 P.c ss.length) := by
  obtain ⟨hp0, hp90, hp45, hp135, hmis, hmis0, hp4⟩ := mini_nonneg a P.c H.cons ss.length
  have hr := H.room
  have hk := nKeptOut_eq P.c P.attr
  have hk1 := nKeptOut_pos P.c P.attr
  have hk2 : ((if P.c.damTol = true ∧ P.attr.twoPlies = true then 2 else 1 : Nat) : Int) =
      (if P.c.damTol = true ∧ P.attr.twoPlies = true then 2 else 1 : Int) := by split_ifs <;> rfl
  rw [← hk2, ← hk] at hr
  have z0 : (0 : Int) ≤ ⌈(calcMini10 P.c ss.length).m0⌉ := Int.ceil_nonneg hp0
  have z90 : (0 : Int) ≤ ⌈(calcMini10 P.c ss.length).m90⌉ := Int.ceil_nonneg hp90
  refine ⟨?_, ?_, hmis⟩
  · unfold Spec.designPlies at hr
    split_ifs at hr <;> omega
  · unfold initQueue initMissing
    by_cases h10 : P.c.rule10 = true
    · rw [if_pos h10]
      simp only [List.length_append, List.length_replicate, h10, true_and]
      push_cast
      split_ifs at hr ⊢ <;> omega
    · rw [if_neg h10]
      simp only [h10]
      split_ifs at hr ⊢ <;> simp at * <;> omega

theorem RepairCase.range {a : ConsArgs} {P : RepairSetup} {cs : Int → Nat → ℚ} {ss : Stack}
    (H : RepairCase a P cs ss) : (∀ x ∈ ss, Spec.PlyAngle x) ∧ (666 : Int) ∉ ss ∧ (666 : Int) ∉ P.c.angles := by
  have A := angleSet_of a P.c H.cons
  refine ⟨?_, ?_, ?_⟩
  · intro x hx
    have := A.range x (H.plies x hx)
    unfold Spec.PlyAngle
    omega
  · intro h
    have := A.range _ (H.plies _ h)
    omega
  · intro h
    have := A.range _ h
    omega

theorem step1_of {a : ConsArgs} {P : RepairSetup} {cs : Int → Nat → ℚ} {ss s : Stack} {q : List Int}
    (H : RepairCase a P cs ss)
    (h : repair10Bal P.dist P.c P.attr P.mem (calcMini10 P.c ss.length) P.fuel ss = some (.ok (s, q))) :
    Step1 P cs ss s q := by
  have A := angleSet_of a P.c H.cons
  obtain ⟨hPA, h666, _⟩ := H.range
  obtain ⟨hlong, hroom, hmis⟩ := H.long
  have hhalf : nKeptOut P.c P.attr ≤ ss.length / 2 := by omega
  have hbi : P.c.bal = P.c.ipo := by
    obtain ⟨p, _, _, _, _, _, _, _, _, _, _, e⟩ := mkConstraints_inv a P.c H.cons
    rw [e]
  have h4 : P.c.rule10 = true → (0 : Int) ∈ P.c.angles ∧ (45 : Int) ∈ P.c.angles ∧ (90 : Int) ∈ P.c.angles ∧
      (-45 : Int) ∈ P.c.angles := by
    obtain ⟨p, _, _, _, _, _, h2, _, _, _, _, e⟩ := mkConstraints_inv a P.c H.cons
    rw [e]
    exact h2
  have houter := repair10Bal2_outer P.c (calcMini10 P.c ss.length) ss _ hmis h666 hhalf hroom
  obtain ⟨g1, g2, g3, g4, g5, g6, g7, g8⟩ := C25_repair_10_bal a P.c H.cons ss H.symm hPA (by
    have := H.room
    split_ifs at this <;> omega)
  cases hab : (P.c.rule10 && P.c.rule10Abdalla) with
  | false =>
    have h' : repair10Bal2 P.c (calcMini10 P.c ss.length) ss = (s, q) := by
      unfold repair10Bal at h
      rw [if_pos hab] at h
      simpa using h
    have hq := repair10Bal2_queue_in P.c (calcMini10 P.c ss.length) ss A.neg H.zero
      (fun h => ⟨(h4 h).2.2.1, (h4 h).2.1, (h4 h).2.2.2⟩) H.plies A.range (fun h => by
        unfold initMissing; rw [h]; simp)
    have hmd := repair10Bal2_middle P.c (calcMini10 P.c ss.length) ss
    rw [h'] at g1 g2 g3 g4 g5 g6 g7 g8 hq houter hmd
    dsimp only at *
    refine ⟨g1, g3, g4, ?_, hq, fun h => g7 (by rw [← hbi]; exact h), g8, by rw [hab]; simp, ?_, houter, ?_⟩
    · intro x hx
      obtain ⟨i, hi, hx⟩ := List.getElem_of_mem hx
      have hxi : s[i]? = some x := by rw [List.getElem?_eq_getElem hi, hx]
      rcases g2 i with h | h | ⟨_, _, _, h⟩
      · exact Or.inr (H.plies x (List.mem_of_getElem? (h.symm.trans hxi)))
      · left
        exact Option.some.inj (hxi.symm.trans h)
      · right
        rw [Option.some.inj (hxi.symm.trans h)]
        exact H.zero
    · intro _ hen hsy hodd
      rw [nth_some (by omega), Option.some.injEq, Option.some.injEq]
      exact hmd hen hsy hodd
    · intro _ i hi
      have key : ∀ j, j < ss.length → (ss.length % 2 = 1 → j ≠ ss.length / 2) → nth s j ≠ 666 →
          nth s j = nth ss j := by
        intro j hj hm hne
        rcases g2 j with h | h | h
        · rw [nth_some hj, nth_some (by omega), Option.some.injEq] at h
          exact h
        · rw [nth_some (by omega), Option.some.injEq] at h
          exact absurd h hne
        · exact absurd h.2.2.1 (hm h.2.1)
      exact ⟨key i (by omega) (by omega) (houter i hi).1, key _ (by omega) (by omega) (houter i hi).2⟩
  | true =>
    rw [Bool.and_eq_true] at hab
    obtain ⟨k1, k2, k3, k4, k5, k6, k7, k8, k9⟩ := C58_repair_10_abdalla a P.c H.cons hab.1 hab.2 P.dist P.attr P.mem
      cs H.trig _ P.fuel ss H.size H.plies H.symm (s, q) h
    have hm := abd_marks a P.c H.cons hab.1 hab.2 P.dist P.attr P.mem _ P.fuel ss H.size H.plies H.symm (s, q) h
    refine ⟨k1, k2, k3, k4, k5, k7, ?_, fun _ => k8, by rw [hab.1, hab.2]; simp, ?_, ?_⟩
    · obtain ⟨z0, z45, z90, z135, z4, _⟩ := (C14_percentages a P.c H.cons).2.2.2.2.2.2.1 (Or.inr hab.2)
      unfold Spec.MeetsShares Cons.shares
      simp only [z0, z45, z90, z135, z4, zero_mul, add_zero]
      refine ⟨by positivity, by positivity, by positivity, by positivity, by positivity⟩
    · intro i hi
      obtain ⟨o1, o2⟩ := houter i hi
      exact ⟨fun e => o1 ((hm i (by omega)).1 e), fun e => o2 ((hm _ (by omega)).1 e)⟩
    · intro hd i hi
      obtain ⟨o1, o2⟩ := houter i hi
      have n1 : nth s i ≠ 666 := fun e => o1 ((hm i (by omega)).1 e)
      have n2 : nth s (ss.length - 1 - i) ≠ 666 := fun e => o2 ((hm _ (by omega)).1 e)
      have h3 : 3 < ss.length := by
        have := H.room
        unfold Spec.designPlies at this
        obtain ⟨hp0, hp90, hp45, hp135, hmis, hmis0, hp4⟩ := mini_nonneg a P.c H.cons ss.length
        have z0 : (0 : Int) ≤ ⌈(calcMini10 P.c ss.length).m0⌉ := Int.ceil_nonneg hp0
        have z90 : (0 : Int) ≤ ⌈(calcMini10 P.c ss.length).m90⌉ := Int.ceil_nonneg hp90
        split_ifs at this <;> omega
      have hk : i < (if P.attr.twoPlies then 2 else 1) := by
        rw [nKeptOut_eq, hd] at hi
        simpa using hi
      obtain ⟨m1, m2⟩ := k9 hd h3 i hk
      refine ⟨?_, ?_⟩
      · rw [nth_some (by omega), nth_some (by omega), Option.some.injEq, Option.some.injEq] at m1
        exact m1.resolve_right n1
      · rw [nth_some (by omega), nth_some (by omega), Option.some.injEq, Option.some.injEq] at m2
        exact m2.resolve_right n2

/-! ### Steps 1 to 3 -/

/-- The partial laminate and the queue from which the repaired laminate is made. -/
structure Source (P : RepairSetup) (cs : Int → Nat → ℚ) (ss s : Stack) (q : List Int) : Prop where
  len : s.length = ss.length
  symm : P.c.sym = true → Spec.Symmetric s
  ok : Repairable P.c P.attr s q
  kept : P.c.damTol = true → ∀ i, i < nKeptOut P.c P.attr → nth s i = nth ss i ∧
    nth s (ss.length - 1 - i) = nth ss (ss.length - 1 - i)
  content : ∀ x ∈ Spec.plyContent P.c.sym s q, x ∈ P.c.angles
  bal : P.c.bal = true → Spec.Balanced (Spec.plyContent P.c.sym s q)
  shares : P.c.ipo = true ∨ P.c.p45_135 ≤ P.c.p45 + P.c.p135 →
    Spec.MeetsShares P.c.shares 0 ((Spec.plyContent P.c.sym s q).count 0)
      ((Spec.plyContent P.c.sym s q).count 90) ((Spec.plyContent P.c.sym s q).count 45)
      ((Spec.plyContent P.c.sym s q).count (-45)) ss.length
  abd : (P.c.rule10 && P.c.rule10Abdalla) = true →
    P.dist (Spec.inPlane cs ss.length (Spec.plyContent P.c.sym s q)) ≤ 1 / 10 ^ 10

theorem plyContent_mem {sym : Bool} {s : Stack} {q : List Int} {L : List Int} (h1 : ∀ x ∈ s, x = 666 ∨ x ∈ L)
    (h2 : ∀ x ∈ q, x ∈ L) : ∀ x ∈ Spec.plyContent sym s q, x ∈ L := by
  intro x hx
  unfold Spec.plyContent Spec.knownPlies at hx
  rw [List.mem_append, List.mem_append, List.mem_filter, decide_eq_true_eq] at hx
  rcases hx with (⟨hx, hne⟩ | hx) | hx
  · exact (h1 x hx).resolve_left hne
  · exact h2 x hx
  · split_ifs at hx
    · exact h2 x hx
    · cases hx

/-- The candidates handed to step 3. -/
theorem repairSteps_cands {a : ConsArgs} {P : RepairSetup} {cs : Int → Nat → ℚ} {ss : Stack}
    (H : RepairCase a P cs ss) {s : Stack} {q : List Int} {cands : List (Stack × List Int)}
    (h1 : repair10Bal P.dist P.c P.attr P.mem (calcMini10 P.c ss.length) P.fuel ss = some (.ok (s, q)))
    (h2 : repairMembrane P.imported P.memSwitch P.dist P.c P.attr P.mem (calcMini10 P.c ss.length) P.fuel s q =
      some (.ok cands)) : ∀ x ∈ cands, Source P cs ss x.1 x.2 := by
  have S := step1_of H h1
  have hcont := plyContent_mem (sym := P.c.sym) S.plies S.queue
  have hclen := content_length P.c.sym s q S.marks
  have hin : MemInput P.c P.mem cs s q := ⟨H.trig, by rw [S.len]; exact H.size, S.plies, S.queue, S.symm, by
    rw [S.len]
    exact H.bound _ (by rw [hclen, S.len]) hcont⟩
  obtain ⟨hlast, hc⟩ := C33_candidates a P.c H.cons P.imported P.memSwitch P.dist P.attr P.mem cs _ P.fuel s q hin
    cands h2
  obtain ⟨_, _, h666⟩ := H.range
  have hbi : P.c.bal = P.c.ipo := by
    obtain ⟨p, _, _, _, _, _, _, _, _, _, _, e⟩ := mkConstraints_inv a P.c H.cons
    rw [e]
  intro x hx
  obtain ⟨c1, c2, c3, c4, c5, c6, c7, c8⟩ := hc x hx
  have hcnt : x.1.count 666 = (if P.c.sym then 2 else 1) * x.2.length := by
    rw [count666_of_marks c1 c3, S.marks, c2]
  have hmk : ∀ i, i < ss.length → nth s i ≠ 666 → nth x.1 i ≠ 666 := by
    intro i hi hne h6
    have := (c3 i).1 (by rw [nth_some (by rw [c1, S.len]; exact hi), h6])
    rw [nth_some (by rw [S.len]; exact hi), Option.some.injEq] at this
    exact hne this
  have hl : x.1.length = ss.length := by rw [c1, S.len]
  have hlong := H.long.1
  refine ⟨hl, c4, ⟨by rw [hl]; exact hlong, ?_, ?_, ?_, fun h => h666 (c6 _ h)⟩, ?_, plyContent_mem c5 c6, ?_, ?_, ?_⟩
  · intro i hi
    obtain ⟨o1, o2⟩ := S.outer i hi
    rw [hl]
    exact ⟨hmk i (by omega) o1, hmk _ (by omega) o2⟩
  · intro hsy hodd
    rw [hsy, if_pos rfl] at hcnt
    exact middle_known (c4 hsy) hcnt hodd
  · cases hsy : P.c.sym with
    | true =>
      rw [hsy, if_pos rfl] at hcnt
      rw [if_pos rfl]
      exact half_marks (c4 hsy) hcnt
    | false =>
      rw [hsy] at hcnt
      simpa using hcnt
  · intro hd i hi
    obtain ⟨o1, o2⟩ := S.kept hd i hi
    have hpr : (((i : ℚ) + 1 ≤ (1 - P.mem.pA / 100) * ((s.length : ℚ) / 2)) ∨ (P.c.damTol = true ∧ i = 0) ∨
        (P.c.damTol = true ∧ P.attr.twoPlies = true ∧ i = 1)) := by
      right
      rw [nKeptOut_eq, hd] at hi
      simp only [true_and] at hi
      split_ifs at hi with h2
      · rcases (by omega : i = 0 ∨ i = 1) with h | h
        · exact Or.inl ⟨hd, h⟩
        · exact Or.inr ⟨hd, h2, h⟩
      · exact Or.inl ⟨hd, by omega⟩
    obtain ⟨m1, m2⟩ := c7 i (by rw [S.len]; omega) hpr
    rw [S.len] at m2
    rw [nth_some (by omega), nth_some (by rw [S.len]; omega), Option.some.injEq] at m1 m2
    exact ⟨m1.trans o1, m2.trans o2⟩
  · intro hb
    exact C33_balance a P.c H.cons (by rw [← hbi]; exact hb) P.imported P.memSwitch P.dist P.attr P.mem cs _ P.fuel s q
      hin (S.bal hb) cands h2 x hx
  · intro hcomb
    have zeros : (P.c.rule10 = false ∨ P.c.rule10Abdalla = true) →
        Spec.MeetsShares P.c.shares 0 ((Spec.plyContent P.c.sym x.1 x.2).count 0)
        ((Spec.plyContent P.c.sym x.1 x.2).count 90) ((Spec.plyContent P.c.sym x.1 x.2).count 45)
        ((Spec.plyContent P.c.sym x.1 x.2).count (-45)) ss.length := by
      intro hz
      obtain ⟨z0, z45, z90, z135, z4, _⟩ := (C14_percentages a P.c H.cons).2.2.2.2.2.2.1 hz
      unfold Spec.MeetsShares Cons.shares
      simp only [z0, z45, z90, z135, z4, zero_mul, add_zero]
      refine ⟨by positivity, by positivity, by positivity, by positivity, by positivity⟩
    by_cases hz : P.c.rule10 = false ∨ P.c.rule10Abdalla = true
    · exact zeros hz
    · simp only [not_or, Bool.not_eq_false, Bool.not_eq_true] at hz
      have hab : (P.c.rule10 && P.c.rule10Abdalla) = false := by rw [hz.2]; simp
      have h2' := h2
      have hsh := S.shares
      rw [← S.len] at h2' hsh ⊢
      refine C33_ten_percent a P.c H.cons hab P.imported P.memSwitch P.dist P.attr P.mem cs P.fuel s q hin S.marks
        ?_ ?_ hsh cands h2' x hx
      · intro hsy hodd
        rw [S.len] at hodd ⊢
        exact S.mid hab (Or.inr hz.1) hsy hodd
      · cases hi : P.c.ipo with
        | true => exact Or.inl ⟨rfl, S.bal (by rw [hbi]; exact hi)⟩
        | false =>
          rw [hi] at hcomb
          exact Or.inr ⟨rfl, by simpa using hcomb⟩
  · intro hab
    rcases C33_abdalla a P.c H.cons hab P.imported P.memSwitch P.dist P.attr P.mem cs _ P.fuel s q hin cands h2 x hx
      with e | e
    · rw [e]; exact S.abd hab
    · rw [S.len] at e; exact e

theorem repairSteps_spec {a : ConsArgs} {P : RepairSetup} {cs : Int → Nat → ℚ} {ss : Stack}
    (H : RepairCase a P cs ss) {s' : Stack} {inward outward : Bool} {ind : Nat}
    (h : repairSteps P ss = some (.ok (s', inward, outward, ind))) :
    ∃ s q, Source P cs ss s q ∧ repairDisoContig P.c P.attr P.nD1 s q = .ok (s', inward, outward) := by
  unfold repairSteps at h
  dsimp only at h
  cases h1 : repair10Bal P.dist P.c P.attr P.mem (calcMini10 P.c ss.length) P.fuel ss with
  | none => rw [h1] at h; cases h
  | some r =>
  cases r with
  | error e => rw [h1] at h; cases h
  | ok sq =>
  obtain ⟨s, q⟩ := sq
  rw [h1] at h
  dsimp only at h
  have S := step1_of H h1
  have hcont := plyContent_mem (sym := P.c.sym) S.plies S.queue
  have hclen := content_length P.c.sym s q S.marks
  have hin : MemInput P.c P.mem cs s q := ⟨H.trig, by rw [S.len]; exact H.size, S.plies, S.queue, S.symm, by
    rw [S.len]
    exact H.bound _ (by rw [hclen, S.len]) hcont⟩
  cases h2 : repairMembrane P.imported P.memSwitch P.dist P.c P.attr P.mem (calcMini10 P.c ss.length) P.fuel s q with
  | none => rw [h2] at h; cases h
  | some r =>
  cases r with
  | error e => rw [h2] at h; cases h
  | ok cands =>
  rw [h2] at h
  dsimp only at h
  have h := Option.some.inj h
  obtain ⟨hlast, hc⟩ := C33_candidates a P.c H.cons P.imported P.memSwitch P.dist P.attr P.mem cs _ P.fuel s q hin
    cands h2
  have hsrc := repairSteps_cands H h1 h2
  obtain ⟨_, hne⟩ := C27_first_repairable_candidate H.contig P.attr P.nD1 cands (fun p hp => (hsrc p hp).ok)
  obtain ⟨i, p, res, iw, ow, e1, e2, e3, _, _⟩ := hne (by rintro rfl; simp at hlast)
  rw [h] at e2
  cases e2
  exact ⟨p.1, p.2, hsrc p (List.mem_of_getElem? e1), e3⟩

/-! ### The theorems -/

/-- C59: when the repair for disorientation and contiguity fails for all candidates, the laminate returned is the
one given, with the objective 10^10 (if an objective is asked for). -/
theorem C59_failure (P : RepairSetup) (obj : Option ℚ) (ss res : Stack) (o : Option ℚ)
    (h : repairSs P obj ss = some (.ok (res, false, o))) : res = ss ∧ o = obj.map (fun _ => 10 ^ 10) := by
  unfold repairSs at h
  split at h
  · cases h
  · cases h
  · rename_i s _ _ _ _
    split_ifs at h
    · have h := Option.some.inj h
      cases hf : repairFlexural P.c P.attr P.flex P.calcLampamD P.nD2 P.nD3 false P.flexSwitch P.flexZero s with
      | error e => rw [hf] at h; cases h
      | ok r =>
        rw [hf] at h
        cases obj with
        | none => cases h
        | some v => cases h
    · cases h
      exact ⟨rfl, rfl⟩

theorem repairSs_ok {P : RepairSetup} {obj : Option ℚ} {ss res : Stack} {o : Option ℚ}
    (h : repairSs P obj ss = some (.ok (res, true, o))) :
    obj = none ∧ o = none ∧ ∃ s inward ind, repairSteps P ss = some (.ok (s, inward, true, ind)) ∧
      repairFlexural P.c P.attr P.flex P.calcLampamD P.nD2 P.nD3 false P.flexSwitch P.flexZero s = .ok res := by
  unfold repairSs at h
  split at h
  · cases h
  · cases h
  · rename_i s inward outward ind hst
    split_ifs at h with ho
    · have h := Option.some.inj h
      cases hf : repairFlexural P.c P.attr P.flex P.calcLampamD P.nD2 P.nD3 false P.flexSwitch P.flexZero s with
      | error e => rw [hf] at h; cases h
      | ok r =>
        rw [hf] at h
        cases obj with
        | some v => cases h
        | none =>
          cases h
          rw [ho] at hst
          exact ⟨rfl, rfl, s, inward, ind, hst, hf⟩
    · cases h

/-- C59 (violation found): no successful repair can be returned together with an objective: when an objective is asked
for, the call ends with an error, or reports a failure with the laminate given. -/
theorem C59_objective_never_returned (P : RepairSetup) (v : ℚ) (ss res : Stack) (b : Bool) (o : Option ℚ)
    (h : repairSs P (some v) ss = some (.ok (res, b, o))) : b = false ∧ res = ss ∧ o = some (10 ^ 10) := by
  cases b with
  | true => have := (repairSs_ok h).1; cases this
  | false =>
    obtain ⟨h1, h2⟩ := C59_failure P (some v) ss res o h
    exact ⟨rfl, h1, h2⟩

/-- C59: a laminate reported as repaired has the size of the laminate given, only allowed plies, is symmetric,
balanced and meets the 10% rule (the variant in use) when these rules are required. -/
theorem C59_content (a : ConsArgs) (P : RepairSetup) (cs : Int → Nat → ℚ) (ss : Stack)
    (H : RepairCase a P cs ss) (obj : Option ℚ) (res : Stack) (o : Option ℚ)
    (h : repairSs P obj ss = some (.ok (res, true, o))) :
    res.length = ss.length ∧ (∀ x ∈ res, x ∈ P.c.angles) ∧
    (P.c.sym = true → Spec.Symmetric res) ∧
    (P.c.bal = true → Spec.Balanced res) ∧
    (P.c.ipo = true ∨ P.c.p45_135 ≤ P.c.p45 + P.c.p135 →
      Spec.MeetsShares P.c.shares 0 (res.count 0) (res.count 90) (res.count 45) (res.count (-45)) res.length) ∧
    (P.c.rule10 = true → P.c.rule10Abdalla = true → P.dist (Spec.inPlane cs res.length res) ≤ 1 / 10 ^ 10) := by
  obtain ⟨_, _, s', inward, ind, hst, hf⟩ := repairSs_ok h
  obtain ⟨s, q, S, hrep⟩ := repairSteps_spec H hst
  obtain ⟨r1, r2, r3, _, _, _⟩ := reorders_content H.contig S.ok S.symm hrep
  obtain ⟨f1, f2⟩ := C56_flexural_reorders H.contig H.nD2 H.flexBound r2 hf
  have hp : res.Perm (Spec.plyContent P.c.sym s q) := f1.trans r3
  have hl : res.length = ss.length := by rw [f1.length_eq, r1, S.len]
  refine ⟨hl, fun x hx => S.content x (hp.mem_iff.1 hx), f2, ?_, ?_, ?_⟩
  · intro hb
    have := S.bal hb
    unfold Spec.Balanced at this ⊢
    intro x
    simp only [hp.count_eq]
    exact this x
  · intro hcomb
    rw [hp.count_eq, hp.count_eq, hp.count_eq, hp.count_eq, hl]
    exact S.shares hcomb
  · intro h10 hab
    have := S.abd (by rw [h10, hab]; rfl)
    rw [hl]
    have e : Spec.inPlane cs ss.length res = Spec.inPlane cs ss.length (Spec.plyContent P.c.sym s q) := by
      funext k
      unfold Spec.inPlane
      rw [(hp.map _).sum_eq]
    rw [e]
    exact this

/-- C59: without out-of-plane refinement, the plies at both ends which damage tolerance protects are those of the
laminate given, so that a damage tolerant laminate stays damage tolerant. -/
theorem C59_protected_plies (a : ConsArgs) (P : RepairSetup) (cs : Int → Nat → ℚ) (ss : Stack)
    (H : RepairCase a P cs ss) (hd : P.c.damTol = true) (hoff : P.flexSwitch = false ∨ P.flexZero = true)
    (obj : Option ℚ) (res : Stack) (o : Option ℚ) (h : repairSs P obj ss = some (.ok (res, true, o)))
    (i : Nat) (hi : i < if P.attr.twoPlies then 2 else 1) :
    res[i]? = ss[i]? ∧ res[ss.length - 1 - i]? = ss[ss.length - 1 - i]? := by
  obtain ⟨_, _, s', inward, ind, hst, hf⟩ := repairSs_ok h
  rw [C56_flexural_off hoff] at hf
  cases hf
  obtain ⟨s, q, S, hrep⟩ := repairSteps_spec H hst
  obtain ⟨r1, _, _, _, r2, r3⟩ := reorders_content H.contig S.ok S.symm hrep
  have hlong := H.long.1
  have hk : nKeptIn P.c P.attr = nKeptOut P.c P.attr := by unfold nKeptIn; rw [if_pos hd]
  have hi' : i < nKeptOut P.c P.attr := by
    rw [nKeptOut_eq, hd]
    simpa using hi
  obtain ⟨k1, k2⟩ := S.kept hd i hi'
  rw [hk] at r2 r3
  have hl := S.len
  have e1 := congrArg (fun l => l[i]?) r2
  simp only [List.getElem?_take, if_pos hi'] at e1
  have e2 := congrArg (fun l => l[nKeptOut P.c P.attr - 1 - i]?) r3
  simp only [List.getElem?_drop] at e2
  rw [hl, (by omega : ss.length - nKeptOut P.c P.attr + (nKeptOut P.c P.attr - 1 - i) = ss.length - 1 - i)] at e2
  refine ⟨?_, ?_⟩
  · rw [e1, nth_some (by omega), nth_some (by omega), k1]
  · rw [e2, nth_some (by omega), nth_some (by omega), k2]

/-- C59: with the out-of-plane refinement on (and at least one pass), a laminate reported as repaired meets the
contiguity rule and, without damage tolerance, the disorientation rule, if these are required. -/
theorem C59_rules_refined (a : ConsArgs) (P : RepairSetup) (cs : Int → Nat → ℚ) (ss : Stack)
    (H : RepairCase a P cs ss) (hon : P.flexSwitch = true ∧ P.flexZero = false) (h3 : 1 ≤ P.nD3)
    (obj : Option ℚ) (res : Stack) (o : Option ℚ) (h : repairSs P obj ss = some (.ok (res, true, o))) :
    (P.c.contig = true → Spec.ContigOK P.c.nContig res) ∧
    (P.c.diso = true → P.c.damTol = false → Spec.DisoOK P.c.deltaAngle res) ∧
    (P.c.diso = true → P.c.damTol = true → P.attr.twoPlies = true →
      Spec.PairsWithin P.c.deltaAngle res 1 (res.length - 2)) := by
  obtain ⟨_, _, s', inward, ind, hst, hf⟩ := repairSs_ok h
  obtain ⟨s, q, S, hrep⟩ := repairSteps_spec H hst
  obtain ⟨r1, r2, r3, _, _, _⟩ := reorders_content H.contig S.ok S.symm hrep
  have A := angleSet_of a P.c H.cons
  have hin : InRange s' := by
    intro x hx
    have := A.range x (S.content x (r3.mem_iff.1 hx))
    omega
  rw [hon.1, hon.2] at hf
  obtain ⟨g1, g2, g3⟩ := C56_flexural_single_panel H.contig H.nD2 h3 H.flexBound r2 hin hf
  exact ⟨g3, g1, g2⟩

/-- The rules met by the laminate which the first three steps return with success. -/
theorem repairSteps_rules {a : ConsArgs} {P : RepairSetup} {cs : Int → Nat → ℚ} {ss : Stack}
    (H : RepairCase a P cs ss) (r : Int) (hattr : P.attr = .rule r)
    (hdelta : 0 ≤ P.c.deltaAngle) (hD1 : 1 ≤ P.nD1)
    (hsize : P.c.sym = false → ss.length - 2 * (nKeptOut P.c P.attr - 1) ≠
      4 + min P.nD1 (ss.length - 2 * nKeptIn P.c P.attr - 1) + P.c.nContig)
    (hsize' : P.c.sym = true → ss.length ≤ P.c.nContig ∨ P.c.nContig + 2 * nKeptOut P.c P.attr ≤ ss.length)
    {s' : Stack} {inward : Bool} {ind : Nat} (hst : repairSteps P ss = some (.ok (s', inward, true, ind))) :
    (P.c.diso = true → Spec.PairsWithin P.c.deltaAngle s' (nKeptOut P.c P.attr - 1)
      (s'.length - 1 - (nKeptOut P.c P.attr - 1))) ∧
    (P.c.contig = true → P.c.nContig ≤ P.nD1 → Spec.ContigOK P.c.nContig
      ((s'.drop (nKeptOut P.c P.attr - 1)).take (s'.length - 2 * (nKeptOut P.c P.attr - 1)))) := by
  obtain ⟨s, q, S, hrep⟩ := repairSteps_spec H hst
  obtain ⟨r1, r2, r3, _, _, _⟩ := reorders_content H.contig S.ok S.symm hrep
  have A := angleSet_of a P.c H.cons
  have hok := S.ok
  have hl := S.len
  have hrange : PliesInRange s q := by
    have hc : ∀ x ∈ Spec.plyContent P.c.sym s q, -90 ≤ x ∧ x ≤ 90 := by
      intro x hx
      have := A.range x (S.content x hx)
      omega
    refine ⟨?_, ?_⟩
    · intro x hx h6
      apply hc
      unfold Spec.plyContent Spec.knownPlies
      rw [List.mem_append, List.mem_append, List.mem_filter]
      exact Or.inl (Or.inl ⟨hx, by simpa using h6⟩)
    · intro x hx
      apply hc
      unfold Spec.plyContent
      rw [List.mem_append, List.mem_append]
      exact Or.inl (Or.inr hx)
  rw [hattr] at hrep hok hsize hsize' ⊢
  rw [← hl] at hsize hsize'
  cases hsy : P.c.sym with
  | true =>
    refine ⟨fun hd => C28_disorientation_symmetric H.contig r P.nD1 s q hsy hok hrange hd hdelta hrep (Or.inr rfl),
      fun hk hn => C28_contiguity_symmetric H.contig r P.nD1 s q hsy hok hk (by omega) (hsize' hsy) hrep (Or.inr rfl)⟩
  | false =>
    exact ⟨fun hd => C28_disorientation_asymmetric H.contig r P.nD1 s q hsy hok hrange hd hD1 (hsize hsy) hrep
      (Or.inr rfl),
      fun hk hn => C28_contiguity_asymmetric H.contig r P.nD1 s q hsy hok hk hn (hsize hsy) hrep (Or.inr rfl)⟩

/-- C59: without out-of-plane refinement, a laminate reported as repaired meets the disorientation and contiguity
rules, up to the outermost ply on each side when damage tolerance protects two plies; the limit of contiguity must not
exceed the number of plies permuted by the repair, and some sizes are excluded (see C28). -/
theorem C59_rules_unrefined (a : ConsArgs) (P : RepairSetup) (cs : Int → Nat → ℚ) (ss : Stack)
    (H : RepairCase a P cs ss) (hoff : P.flexSwitch = false ∨ P.flexZero = true) (r : Int) (hattr : P.attr = .rule r)
    (hdelta : 0 ≤ P.c.deltaAngle) (hD1 : 1 ≤ P.nD1)
    (hsize : P.c.sym = false → ss.length - 2 * (nKeptOut P.c P.attr - 1) ≠
      4 + min P.nD1 (ss.length - 2 * nKeptIn P.c P.attr - 1) + P.c.nContig)
    (hsize' : P.c.sym = true → ss.length ≤ P.c.nContig ∨ P.c.nContig + 2 * nKeptOut P.c P.attr ≤ ss.length)
    (obj : Option ℚ) (res : Stack) (o : Option ℚ) (h : repairSs P obj ss = some (.ok (res, true, o))) :
    (P.c.diso = true → Spec.PairsWithin P.c.deltaAngle res (nKeptOut P.c P.attr - 1)
      (res.length - 1 - (nKeptOut P.c P.attr - 1))) ∧
    (P.c.contig = true → P.c.nContig ≤ P.nD1 → Spec.ContigOK P.c.nContig
      ((res.drop (nKeptOut P.c P.attr - 1)).take (res.length - 2 * (nKeptOut P.c P.attr - 1)))) := by
  obtain ⟨_, _, s', inward, ind, hst, hf⟩ := repairSs_ok h
  rw [C56_flexural_off hoff] at hf
  cases hf
  exact repairSteps_rules H r hattr hdelta hD1 hsize hsize' hst

/-! ### Examples -/

theorem inPlane_abs_le (cs : Int → Nat → ℚ) (h1 : ∀ a k, |cs a k| ≤ 1) (n : Nat) (r : List Int) (hr : r.length = n)
    (k : Nat) : |Spec.inPlane cs n r k| ≤ 1 := by
  unfold Spec.inPlane
  have : ∀ l : List Int, |(l.map (fun a => cs a k)).sum| ≤ l.length := by
    intro l
    induction l with
    | nil => simp
    | cons x l ih =>
      rw [List.map_cons, List.sum_cons, List.length_cons]
      have := abs_add_le (cs x k) (l.map (fun a => cs a k)).sum
      have := h1 x k
      push_cast
      linarith
  have h := this r
  rw [hr] at h
  rw [abs_div, Nat.abs_cast]
  rcases Nat.eq_zero_or_pos n with h0 | h0
  · subst h0; simp
  · rw [div_le_one (by exact_mod_cast h0)]
    exact h

theorem inPlaneObjective_le (D : MemData) (cs : Int → Nat → ℚ) (h1 : ∀ a k, |cs a k| ≤ 1) (h2 : ∀ k, |D.target k| ≤ 1)
    (h3 : ∀ k, 0 ≤ D.coeffs k ∧ D.coeffs k ≤ 1) (n : Nat) (r : List Int) (hr : r.length = n) :
    Spec.inPlaneObjective D.coeffs D.target (Spec.inPlane cs n r) ≤ 10 ^ 10 := by
  unfold Spec.inPlaneObjective
  have : ∀ k ∈ Finset.range 4, D.coeffs k * (Spec.inPlane cs n r k - D.target k) ^ 2 ≤ 4 := by
    intro k _
    have a1 := inPlane_abs_le cs h1 n r hr k
    have a2 := h2 k
    have a3 := h3 k
    rw [abs_le] at a1 a2
    have : (Spec.inPlane cs n r k - D.target k) ^ 2 ≤ 4 := by nlinarith
    have h0 := sq_nonneg (Spec.inPlane cs n r k - D.target k)
    nlinarith
  refine (Finset.sum_le_sum this).trans ?_
  norm_num

/-- Symmetric and balanced designs with the 10% rule on ply counts, disorientation and contiguity rules, and
possibly damage tolerance. -/
def ssArgs (damTol : Bool) : ConsArgs where
  sym := true
  bal := true
  rule10 := true
  percent0 := 10
  percent90 := 10
  percent45 := 10
  percent135 := 10
  diso := true
  deltaAngle := 45
  contig := true
  nContig := 5
  damTol := damTol
  damTolRule := 1

/-- The default parameters. -/
def ssSetup (c : Cons) (mem flex : Bool) : RepairSetup where
  c := c
  attr := c.damTolAttr
  mem := trigData (1 / 2) 1
  flex := exFlex
  dist := fun _ => 0
  calcLampamD := trueLampamD exFlex
  imported := true
  memSwitch := mem
  flexSwitch := flex
  flexZero := false
  nD1 := 6
  nD2 := 10
  nD3 := 1
  fuel := 100

/-- The hypotheses hold for the default parameters and a laminate with the plies 0, 45, 90, -45 and enough room. -/
theorem ssCase_of (a : ConsArgs) (mem flex : Bool) (c : Cons) (hc : mkConstraints a = .ok c) (ss : Stack)
    (h1 : ContigCons c) (h2 : c.angles = [-45, 0, 45, 90]) (h3 : ss.length ≤ 6666)
    (h4 : ∀ x ∈ ss, x ∈ ([-45, 0, 45, 90] : List Int)) (h5 : Spec.Symmetric ss)
    (h6 : (⌈(calcMini10 c ss.length).m0⌉ + ⌈(calcMini10 c ss.length).m90⌉ +
      max ((calcMini10 c ss.length).m45 + (calcMini10 c ss.length).m135) (calcMini10 c ss.length).m45_135 +
      (if c.sym then 2 else 4) * (if c.damTol = true ∧ c.damTolAttr.twoPlies = true then 2 else 1) : Int) ≤
      Spec.designPlies c.sym ss.length) :
    RepairCase a (ssSetup c mem flex) trig4 ss where
  cons := hc
  contig := h1
  size := h3
  plies := by intro x hx; show x ∈ c.angles; rw [h2]; exact h4 x hx
  zero := by show (0 : Int) ∈ c.angles; rw [h2]; decide
  symm := fun _ => h5
  trig := by
    intro r x hx
    change c.angles[r]? = some x at hx
    rw [h2] at hx
    exact trigData_trig _ _ r x hx
  bound := by
    intro r hr _
    apply inPlaneObjective_le (trigData (1 / 2) 1) trig4 _ _ _ _ r hr
    · intro a k
      unfold trig4
      split_ifs <;> norm_num
    · intro k
      show |if k = 0 then (1 / 2 : ℚ) else if k = 1 then 1 else 0| ≤ 1
      split_ifs <;> norm_num
    · intro k
      show (0 : ℚ) ≤ (if k < 2 then 1 else 0) ∧ (if k < 2 then (1 : ℚ) else 0) ≤ 1
      split_ifs <;> norm_num
  flexBound := by
    apply flexObjective_le
    · intro a k
      show |exCS a k| ≤ 1
      unfold exCS
      split <;> (try split_ifs) <;> norm_num
    · intro k
      show |if k < 2 then (1 : ℚ) else 0| ≤ 1
      split_ifs <;> norm_num
    · intro k
      show (0 : ℚ) ≤ 1 / 3 ∧ (1 / 3 : ℚ) ≤ 1
      norm_num
  nD2 := by show 2 ≤ 10; decide
  room := h6

theorem ssCase (damTol mem flex : Bool) (c : Cons) (hc : mkConstraints (ssArgs damTol) = .ok c) (ss : Stack)
    (h1 : ContigCons c) (h2 : c.angles = [-45, 0, 45, 90]) (h3 : ss.length ≤ 6666)
    (h4 : ∀ x ∈ ss, x ∈ ([-45, 0, 45, 90] : List Int)) (h5 : Spec.Symmetric ss)
    (h6 : (⌈(calcMini10 c ss.length).m0⌉ + ⌈(calcMini10 c ss.length).m90⌉ +
      max ((calcMini10 c ss.length).m45 + (calcMini10 c ss.length).m135) (calcMini10 c ss.length).m45_135 +
      (if c.sym then 2 else 4) * (if c.damTol = true ∧ c.damTolAttr.twoPlies = true then 2 else 1) : Int) ≤
      Spec.designPlies c.sym ss.length) :
    RepairCase (ssArgs damTol) (ssSetup c mem flex) trig4 ss :=
  ssCase_of (ssArgs damTol) mem flex c hc ss h1 h2 h3 h4 h5 h6

/-- An unbalanced laminate of 24 plies without 90 plies. -/
def ssStack : Stack := [0, 0, 45, 0, 0, 0, 45, 0, 0, 45, 0, 0, 0, 0, 45, 0, 0, 45, 0, 0, 0, 45, 0, 0]

set_option synthInstance.maxHeartbeats 200000 in
set_option synthInstance.maxSize 1000 in
/-- A damage tolerant laminate that is repaired without out-of-plane refinement, and one that cannot be repaired. -/
example : ∃ c, mkConstraints (ssArgs true) = .ok c ∧ c.damTol = true ∧
    RepairCase (ssArgs true) (ssSetup c false false) trig4 [45, 0, 45, 0, 0, 0, 45, 0, 0, 45, 0, 0, 0, 45, 0, 45] ∧
    repairSs (ssSetup c false false) none [45, 0, 45, 0, 0, 0, 45, 0, 0, 45, 0, 0, 0, 45, 0, 45] = some (.ok
      ([45, 0, 45, 0, 0, -45, 90, -45, -45, 90, -45, 0, 0, 45, 0, 45], true, none)) ∧
    repairSs (ssSetup c false false) (some 0) [45, 90, 0, 90, -45, 0, 0, 0, 0, 0, 0, 0, 0, -45, 90, 0, 90, 45] = some (.ok
      ([45, 90, 0, 90, -45, 0, 0, 0, 0, 0, 0, 0, 0, -45, 90, 0, 90, 45], false, some (10 ^ 10))) := by
  obtain ⟨c, hc, ht⟩ := ok_of_test (mkConstraints (ssArgs true)) (fun (c : Cons) => decide (ContigCons c ∧
    c.angles = [-45, 0, 45, 90] ∧ c.damTol = true ∧
    ((⌈(calcMini10 c 16).m0⌉ + ⌈(calcMini10 c 16).m90⌉ +
      max ((calcMini10 c 16).m45 + (calcMini10 c 16).m135) (calcMini10 c 16).m45_135 +
      (if c.sym then 2 else 4) * (if c.damTol = true ∧ c.damTolAttr.twoPlies = true then 2 else 1) : Int) ≤
      Spec.designPlies c.sym 16) ∧
    repairSs (ssSetup c false false) none [45, 0, 45, 0, 0, 0, 45, 0, 0, 45, 0, 0, 0, 45, 0, 45] = some (.ok
      ([45, 0, 45, 0, 0, -45, 90, -45, -45, 90, -45, 0, 0, 45, 0, 45], true, none)) ∧
    repairSs (ssSetup c false false) (some 0) [45, 90, 0, 90, -45, 0, 0, 0, 0, 0, 0, 0, 0, -45, 90, 0, 90, 45] = some (.ok
      ([45, 90, 0, 90, -45, 0, 0, 0, 0, 0, 0, 0, 0, -45, 90, 0, 90, 45], false, some (10 ^ 10))))) (by decide +kernel)
  obtain ⟨t1, t2, t3, t4, t5, t6⟩ := of_decide_eq_true ht
  exact ⟨c, hc, t3, ssCase true false false c hc _ t1 t2 (by decide) (by decide)
    (by unfold Spec.Symmetric; decide +kernel) t4, t5, t6⟩

end Bella
