import Verif.Proofs.FlexuralMain
import Verif.Spec.Flexural
/-
The objective and the main loop of the flexural repair by moves of plies.
-/
namespace Bella

theorem zipWith_range_sum {α : Type} (dflt : α) (g : Nat → ℚ) (l : List α) (h : α → ℚ) (m : Nat) (hl : l.length = m) :
    (List.zipWith (fun (a : ℚ) (r : α) => a * h r) ((List.range m).map g) l).sum
      = ∑ i ∈ Finset.range m, g i * h (l.getD i dflt) := by
  rw [← list_sum_range]
  congr 1
  apply List.ext_getElem
  · simp [hl]
  · intro i h1 h2
    have hi : i < l.length := by simp at h1; omega
    simp [List.getD_eq_getElem?_getD, hi]

theorem secMomArea_eq (n i : Nat) : secMomArea n i = Spec.height n (i + 1) ^ 3 - Spec.height n i ^ 3 := by
  unfold secMomArea normPos Spec.height
  push_cast
  ring

theorem height_anti (n i : Nat) (h : i ≤ n) (hn : 0 < n) : Spec.height n (n - i) = - Spec.height n i := by
  unfold Spec.height
  have : (n : ℚ) ≠ 0 := by exact_mod_cast hn.ne'
  rw [Nat.cast_sub h]
  field_simp
  ring

theorem lampamD_eq_sum (f : Int → ℚ) (L : Stack) :
    Spec.lampamD f L = (∑ i ∈ Finset.range L.length,
      f (nth L i) * (Spec.height L.length (i + 1) ^ 3 - Spec.height L.length i ^ 3)) / 2 := by
  unfold Spec.lampamD
  rw [zipIdx_map_sum L 0 (fun a i => f a * (Spec.height L.length (i + 1) ^ 3 - Spec.height L.length i ^ 3))]
  rfl

theorem lampamD_sym (f : Int → ℚ) (L : Stack) (hs : L.reverse = L) :
    Spec.lampamD f L = ∑ i ∈ Finset.range (L.length / 2),
      secMomArea L.length i * f (nth L i) +
      if L.length % 2 = 1 then secMomArea L.length (L.length / 2) / 2 * f (nth L (L.length / 2)) else 0 := by
  rw [lampamD_eq_sum, sum_symm]
  · simp only [secMomArea_eq]
    rw [add_div, mul_div_right_comm, div_self two_ne_zero, one_mul]
    congr 1
    · apply Finset.sum_congr rfl
      intro i _
      ring
    · split_ifs
      · ring
      · ring
  · intro i hi
    have e1 : nth L (L.length - 1 - i) = nth L i := by
      conv_rhs => rw [← hs]
      rw [nth_reverse _ _ hi]
    have e2 := height_anti L.length i (by omega) (by omega)
    have e3 := height_anti L.length (i + 1) (by omega) (by omega)
    rw [e1, show L.length - 1 - i + 1 = L.length - i by omega,
      show L.length - 1 - i = L.length - (i + 1) by omega, e2, e3]
    ring

theorem flexRows_eq (D : FlexData) (ss : Stack) (sym : Bool) : flexRows D ss sym = (workOf sym ss).map D.cs := rfl

theorem flexLampam_eq (D : FlexData) (ss : Stack) (sym : Bool) (k : Nat) :
    flexLampam (flexAreas ss.length sym) (flexRows D ss sym) (flexMid D ss sym) k
      = Spec.lampamD (fun a => D.cs a k) (effOf sym ss) := by
  unfold flexLampam
  rw [flexRows_eq, List.zipWith_map_right]
  unfold flexAreas flexMid workOf effOf
  cases sym
  · simp only [Bool.false_eq_true, if_false, false_and, add_zero]
    rw [zipWith_range_sum (0 : Int) (fun i => secMomArea ss.length i / 2) ss (fun a => D.cs a k) _ rfl,
      lampamD_eq_sum, Finset.sum_div]
    apply Finset.sum_congr rfl
    intro i _
    rw [secMomArea_eq]
    unfold nth
    ring
  · simp only [if_true, true_and]
    have hL : (fullOf (middleOf ss) (ss.take (ss.length / 2))).length = ss.length := by
      have := effOf_length true ss
      unfold effOf at this
      simpa using this
    have hW : (ss.take (ss.length / 2)).length = ss.length / 2 := by simp; omega
    rw [zipWith_range_sum (0 : Int) (fun i => secMomArea ss.length i) _ (fun a => D.cs a k) _ hW,
      lampamD_sym _ _ (fullOf_reverse _ _ (middleOf_le ss)), hL]
    congr 1
    · apply Finset.sum_congr rfl
      intro i hi
      rw [Finset.mem_range] at hi
      rw [nth_full_left _ _ _ (by omega)]
      rfl
    · split_ifs with h1
      · have e := nth_full_mid (middleOf ss) (ss.take (ss.length / 2)) 0 (by rw [middleOf_length]; omega)
        rw [hW, Nat.add_zero] at e
        rw [e]
        unfold middleOf
        rw [if_pos h1]
        rfl
      · rfl

/-- The objective of the array `ss` during the repair. -/
def objOf (D : FlexData) (sym : Bool) (ss : Stack) : ℚ :=
  Spec.flexObjective D.cs D.coeffs D.target (effOf sym ss)

theorem flexObj_eq (D : FlexData) (ss : Stack) (sym : Bool) :
    flexObj D (flexLampam (flexAreas ss.length sym) (flexRows D ss sym) (flexMid D ss sym)) = objOf D sym ss := by
  unfold flexObj objOf Spec.flexObjective
  rw [list_sum_range]
  apply Finset.sum_congr rfl
  intro k _
  rw [flexLampam_eq]

/-- What holds of the variables of the main loop. -/
structure FlexInv (rules : Bool) (c : Cons) (attr : DamTolAttr) (D : FlexData) (ss0 : Stack) (s : FlexState) :
    Prop where
  perm : s.ss.Perm ss0
  work : (workOf c.sym s.ss).Perm (workOf c.sym ss0)
  rows : s.rows = flexRows D s.ss c.sym
  best : s.best = objOf D c.sym s.ss
  mid : c.sym = true → s.ss.drop (ss0.length / 2) = ss0.drop (ss0.length / 2)
  top : s.ss.take (keptPlies c attr) = ss0.take (keptPlies c attr)
  bot : c.sym = false → s.ss.drop (ss0.length - keptPlies c attr) = ss0.drop (ss0.length - keptPlies c attr)
  better : s.ss = ss0 ∨ s.best + 1 / 10 ^ 20 < objOf D c.sym ss0
  diso : rules = true → c.diso = true → InRange ss0 → ∀ lo, lo ≤ keptPlies c attr →
    Spec.PairsWithin c.deltaAngle (effOf c.sym ss0) lo (ss0.length - 1 - lo) →
    Spec.PairsWithin c.deltaAngle (effOf c.sym s.ss) lo (ss0.length - 1 - lo)
  contig : rules = true → c.contig = true → ∀ lo, lo ≤ keptPlies c attr →
    WindowsOK c.nContig (effOf c.sym ss0) lo (ss0.length - lo) →
    WindowsOK c.nContig (effOf c.sym s.ss) lo (ss0.length - lo)

theorem FlexInv.best_le {rules : Bool} {c : Cons} {attr : DamTolAttr} {D : FlexData} {ss0 : Stack} {s : FlexState}
    (h : FlexInv rules c attr D ss0 s) : s.best ≤ objOf D c.sym ss0 := by
  rcases h.better with h1 | h1
  · rw [h.best, h1]
  · have : (0 : ℚ) < 1 / 10 ^ 20 := by positivity
    linarith

theorem flexMid_congr (D : FlexData) {ss ss' : Stack} (sym : Bool) (hl : ss'.length = ss.length)
    (h : sym = true → ss'.drop (ss.length / 2) = ss.drop (ss.length / 2)) : flexMid D ss' sym = flexMid D ss sym := by
  funext k
  unfold flexMid
  rw [hl]
  split_ifs with h1
  · have := congrArg (fun (l : Stack) => l[0]?) (h h1.1)
    simp only [List.getElem?_drop, Nat.add_zero] at this
    rw [nth_getElem?, nth_getElem?, this]
  · rfl

theorem movePly_rows (D : FlexData) {ss : Stack} {k : Nat} {sym even : Bool} {i1 i2 : Nat}
    (hv : ValidMove ss.length k sym even i1 i2) :
    movePly sym even (flexRows D ss sym) i1 i2 = flexRows D (movePly sym even ss i1 i2) sym := by
  rw [flexRows_eq, flexRows_eq, hv.work ss rfl, movePly_map]

/-- The value of one candidate, and the array `cos_sin` after it. -/
theorem flexTry_spec {rules : Bool} {c : Cons} (hc : ContigCons c) (D : FlexData) {ss : Stack} {k : Nat}
    {even : Bool} {i1 i2 : Nat} (mid : Nat → ℚ) (hm : mid = flexMid D ss c.sym)
    (hv : ValidMove ss.length k c.sym even i1 i2) :
    ∃ v, flexTry rules c D (flexAreas ss.length c.sym) mid ss even i1 i2 (flexRows D ss c.sym)
        = .ok (v, flexRows D ss c.sym) ∧
      (v = 10 ^ 10 ∨ (flexTest rules c ss even i1 i2 = .ok true ∧
        v = objOf D c.sym (movePly c.sym even ss i1 i2))) := by
  obtain ⟨b, hb⟩ := flexTest_total hc rules ss even i1 i2
  unfold flexTry
  rw [hb]
  simp only [bind, Except.bind]
  cases b
  · exact ⟨_, rfl, Or.inl rfl⟩
  have hlen : (flexRows D ss c.sym).length = if c.sym then ss.length / 2 else ss.length := by
    rw [flexRows_eq]; unfold workOf; split_ifs <;> simp; omega
  have hobj : flexObj D (flexLampam (flexAreas ss.length c.sym)
      (movePly c.sym even (flexRows D ss c.sym) i1 i2) mid) = objOf D c.sym (movePly c.sym even ss i1 i2) := by
    have := flexObj_eq D (movePly c.sym even ss i1 i2) c.sym
    rw [hv.length] at this
    rw [movePly_rows D hv, hm, ← this]
    rw [flexMid_congr D c.sym (hv.length ss)]
    intro hs
    exact hv.drop ss rfl _ (by rw [if_pos hs])
  have hv' := hv
  unfold ValidMove at hv'
  by_cases he : c.sym = false ∧ even = true
  · rw [if_pos he] at hv'
    rw [if_neg (by simp), if_pos he]
    refine ⟨objOf D c.sym (movePly c.sym even ss i1 i2), ?_, Or.inr ⟨rfl, rfl⟩⟩
    rw [moveUp_moveDown _ _ _ (by omega) (by rw [hlen, he.1]; simp; omega), ← hobj]
    unfold movePly
    rw [if_pos he]
    rfl
  · rw [if_neg he] at hv'
    rw [if_neg (by simp), if_neg he]
    refine ⟨objOf D c.sym (movePly c.sym even ss i1 i2), ?_, Or.inr ⟨rfl, rfl⟩⟩
    rw [moveDown_moveUp _ _ _ (by omega) (by rw [hlen]; split_ifs at hv' ⊢ <;> omega), ← hobj]
    unfold movePly
    rw [if_neg he]
    rfl

theorem flexTries_spec {rules : Bool} {c : Cons} (hc : ContigCons c) (D : FlexData) {ss : Stack} {k : Nat}
    {even : Bool} {i1 : Nat} (mid : Nat → ℚ) (hm : mid = flexMid D ss c.sym) : ∀ (cands : List Nat),
    (∀ i2 ∈ cands, ValidMove ss.length k c.sym even i1 i2) →
    ∃ vals, flexTries rules c D (flexAreas ss.length c.sym) mid ss even i1 cands (flexRows D ss c.sym)
        = .ok (vals, flexRows D ss c.sym) ∧ vals.length = cands.length ∧
      ∀ (j : Nat) (v : ℚ), vals[j]? = some v → v = 10 ^ 10 ∨ ∃ i2, cands[j]? = some i2 ∧
        flexTest rules c ss even i1 i2 = .ok true ∧ v = objOf D c.sym (movePly c.sym even ss i1 i2) := by
  intro cands
  induction cands with
  | nil => intro _; exact ⟨[], rfl, rfl, by simp⟩
  | cons i2 rest ih =>
    intro hv
    obtain ⟨v, e1, h1⟩ := flexTry_spec (rules := rules) hc D mid hm (hv i2 (by simp))
    obtain ⟨vals, e2, h2, h3⟩ := ih (fun x hx => hv x (by simp [hx]))
    refine ⟨v :: vals, ?_, by simp [h2], ?_⟩
    · unfold flexTries
      rw [e1]
      simp only [bind, Except.bind]
      rw [e2]
      rfl
    · intro j w hw
      cases j with
      | zero =>
        simp only [List.getElem?_cons_zero, Option.some.injEq] at hw
        subst hw
        rcases h1 with h1 | ⟨h1, h1'⟩
        · exact Or.inl h1
        · exact Or.inr ⟨i2, rfl, h1, h1'⟩
      | succ j =>
        rw [List.getElem?_cons_succ] at hw
        rw [List.getElem?_cons_succ]
        exact h3 j w hw

theorem flexStep_spec {rules : Bool} {c : Cons} (hc : ContigCons c) {attr : DamTolAttr} {D : FlexData} {nD2 : Nat}
    (hn : rules = true → 2 ≤ nD2) {ss0 : Stack} (h0 : objOf D c.sym ss0 ≤ 10 ^ 10) {index : Nat}
    (hi : index + 1 < (flexInd ss0.length c attr).length) {s : FlexState} (h : FlexInv rules c attr D ss0 s) :
    ∃ s', flexStep rules c D nD2 (flexInd ss0.length c attr) (flexAreas ss0.length c.sym) (flexMid D ss0 c.sym)
        index s = .ok s' ∧ FlexInv rules c attr D ss0 s' := by
  have hlen := h.perm.length_eq
  have hi1 : (flexInd ss0.length c attr)[index]? = some ((flexInd ss0.length c attr).getD index 0) := by
    rw [List.getD_eq_getElem?_getD, List.getElem?_eq_getElem (by omega)]; rfl
  generalize hI1 : (flexInd ss0.length c attr).getD index 0 = i1 at hi1
  generalize hcd : slice (flexInd ss0.length c attr) (index + 1)
    (if rules then index + nD2 else index + 2 + nD2) = cands
  have hcand : ∀ (j i2 : Nat), cands[j]? = some i2 → (flexInd ss0.length c attr)[index + 1 + j]? = some i2 := by
    intro j i2 hj
    rw [← hcd, slice_getElem?] at hj
    generalize (if rules then index + nD2 else index + 2 + nD2) = top at hj
    split at hj
    · exact hj
    · cases hj
  have hvalid : ∀ (j i2 : Nat), cands[j]? = some i2 →
      ValidMove s.ss.length (keptPlies c attr) c.sym (decide (index % 2 = 0)) i1 i2 := by
    intro j i2 hj
    rw [hlen]
    exact flexInd_valid hi1 (hcand j i2 hj) (by omega)
  have hmid := (flexMid_congr D c.sym hlen (fun hs => h.mid hs)).symm
  obtain ⟨vals, e1, e2, e3⟩ := flexTries_spec (rules := rules) hc D (flexMid D ss0 c.sym) hmid cands
    (fun i2 hi2 => by
      obtain ⟨j, hj⟩ := List.getElem?_of_mem hi2
      exact hvalid j i2 hj)
  have hsz : vals.length ≤ (if rules then nD2 - 1 else ((flexInd ss0.length c attr).drop (index + 1)).length) ∧
      0 < (if rules then nD2 - 1 else ((flexInd ss0.length c attr).drop (index + 1)).length) := by
    rw [e2, ← hcd, slice_length']
    cases rules
    · simp; omega
    · have := hn rfl
      simp; omega
  unfold flexStep
  dsimp only
  rw [hI1, hcd, h.rows, ← hlen, e1]
  simp only [bind, Except.bind]
  generalize hsize : (if rules then nD2 - 1 else ((flexInd ss0.length c attr).drop (index + 1)).length) = size at hsz
  rw [hlen, hsize]
  generalize hO : vals ++ List.replicate (size - vals.length) (10 ^ 10 : ℚ) = objD
  have hne : objD ≠ [] := by
    intro hh
    have := congrArg List.length hO
    rw [hh, List.length_append, List.length_replicate, List.length_nil] at this
    omega
  rw [if_neg hne]
  obtain ⟨a1, a2, a3⟩ := argMin_spec objD hne
  by_cases hbetter : objD.getD (argMin objD) 0 + 1 / 10 ^ 20 < s.best
  · rw [if_pos hbetter]
    have hb := h.best_le
    have hlt : objD.getD (argMin objD) 0 < 10 ^ 10 := by
      have : (0 : ℚ) < 1 / 10 ^ 20 := by positivity
      linarith
    have hget : objD[argMin objD]? = some (objD.getD (argMin objD) 0) := by
      rw [List.getD_eq_getElem?_getD, List.getElem?_eq_getElem a1]; rfl
    generalize hv : objD.getD (argMin objD) 0 = v at *
    generalize hj : argMin objD = j at *
    have hjv : vals[j]? = some v := by
      rw [← hO, List.getElem?_append] at hget
      split at hget
      · exact hget
      · rw [List.getElem?_replicate] at hget
        split at hget
        · simp only [Option.some.injEq] at hget
          rw [← hget] at hlt
          exact absurd hlt (lt_irrefl _)
        · cases hget
    rcases e3 j v hjv with h1 | ⟨i2, h1, h2, h3⟩
    · rw [h1] at hlt
      exact absurd hlt (lt_irrefl _)
    · have hvm := hvalid j i2 h1
      have h4 : ((flexInd ss0.length c attr).drop (index + 1))[j]? = some i2 := by
        rw [List.getElem?_drop]; exact hcand j i2 h1
      rw [h4]
      dsimp only
      have hrows := movePly_rows D hvm
      have key : FlexInv rules c attr D ss0
          { ss := movePly c.sym (decide (index % 2 = 0)) s.ss i1 i2
            rows := movePly c.sym (decide (index % 2 = 0)) (flexRows D s.ss c.sym) i1 i2
            best := v } := by
        refine ⟨(hvm.perm _).trans h.perm, ?_, hrows, h3, ?_, ?_, ?_, ?_, ?_, ?_⟩
        · dsimp only
          rw [hvm.work s.ss rfl]
          exact (hvm.perm _).trans h.work
        · intro hs
          rw [← h.mid hs]
          exact hvm.drop s.ss rfl _ (by rw [if_pos hs, hlen])
        · rw [← h.top]; exact hvm.take s.ss rfl
        · intro hs
          rw [← h.bot hs]
          exact hvm.drop s.ss rfl _ (by rw [if_neg (by simp [hs])]; omega)
        · right; exact lt_of_lt_of_le hbetter hb
        · intro hr hd hin lo hlo hp
          have := h.diso hr hd hin lo hlo hp
          rw [← hlen] at this ⊢
          subst hr
          exact (flexTest_rules hc hvm h2 hlo).1 hd (hin.perm h.perm) this
        · intro hr hd lo hlo hp
          have := h.contig hr hd lo hlo hp
          rw [← hlen] at this ⊢
          subst hr
          exact (flexTest_rules hc hvm h2 hlo).2 hd this
      by_cases he : c.sym = false ∧ decide (index % 2 = 0) = true
      · rw [if_pos he]
        refine ⟨_, rfl, ?_⟩
        unfold movePly at key
        simp only [if_pos he] at key
        exact key
      · rw [if_neg he]
        refine ⟨_, rfl, ?_⟩
        unfold movePly at key
        simp only [if_neg he] at key
        exact key
  · rw [if_neg hbetter]
    refine ⟨_, rfl, ?_⟩
    exact ⟨h.perm, h.work, rfl, h.best, h.mid, h.top, h.bot, h.better, h.diso, h.contig⟩

theorem flexLoop_spec {rules : Bool} {c : Cons} (hc : ContigCons c) {attr : DamTolAttr} {D : FlexData} {nD2 : Nat}
    (hn : rules = true → 2 ≤ nD2) {ss0 : Stack} (h0 : objOf D c.sym ss0 ≤ 10 ^ 10) : ∀ (k index : Nat) (s : FlexState),
    index + k < (flexInd ss0.length c attr).length ∨ k = 0 → FlexInv rules c attr D ss0 s →
    ∃ s', flexLoop rules c D nD2 (flexInd ss0.length c attr) (flexAreas ss0.length c.sym) (flexMid D ss0 c.sym)
        k index s = .ok s' ∧ FlexInv rules c attr D ss0 s' := by
  intro k
  induction k with
  | zero => intro index s _ h; exact ⟨s, rfl, h⟩
  | succ k ih =>
    intro index s hk h
    obtain ⟨s1, e1, h1⟩ := flexStep_spec hc hn h0 (index := index) (by omega) h
    obtain ⟨s2, e2, h2⟩ := ih (index + 1) s1 (by omega) h1
    refine ⟨s2, ?_, h2⟩
    unfold flexLoop
    rw [e1]
    exact e2

theorem FlexInv.init (rules : Bool) (c : Cons) (attr : DamTolAttr) (D : FlexData) (ss : Stack) :
    FlexInv rules c attr D ss
      { ss := ss, rows := flexRows D ss c.sym
        best := flexObj D (flexLampam (flexAreas ss.length c.sym) (flexRows D ss c.sym) (flexMid D ss c.sym)) } :=
  ⟨List.Perm.refl _, List.Perm.refl _, rfl, flexObj_eq D ss c.sym, fun _ => rfl, rfl, fun _ => rfl, Or.inl rfl,
    fun _ _ _ _ _ h => h, fun _ _ _ _ h => h⟩

theorem effOf_self {ss : Stack} (h : ss.reverse = ss) : effOf true ss = ss := by
  have hl := effOf_length true ss
  unfold effOf at hl ⊢
  simp only [if_true] at hl ⊢
  have hW : (ss.take (ss.length / 2)).length = ss.length / 2 := by simp; omega
  apply List.ext_getElem hl
  intro i h1 h2
  rw [← nth_eq_getElem _ _ h1, ← nth_eq_getElem _ _ h2]
  have htake : ∀ x, x < ss.length / 2 → nth (ss.take (ss.length / 2)) x = nth ss x := by
    intro x hx
    rw [nth_getElem?, nth_getElem?, List.getElem?_take, if_pos hx]
  by_cases c1 : i < ss.length / 2
  · rw [nth_full_left _ _ _ (by omega), htake _ c1]
  · by_cases c2 : ss.length % 2 = 1 ∧ i = ss.length / 2
    · have e := nth_full_mid (middleOf ss) (ss.take (ss.length / 2)) 0 (by rw [middleOf_length]; omega)
      rw [hW, Nat.add_zero] at e
      rw [c2.2, e]
      unfold middleOf
      rw [if_pos c2.1]
      rfl
    · rw [nth_full_right _ _ _ (by rw [middleOf_length]; omega) h1, hl, htake _ (by omega)]
      conv_rhs => rw [← h]
      rw [nth_reverse _ _ h2]


/-- The two functions, all at once. -/
theorem flexMain_spec {rules : Bool} {c : Cons} (hc : ContigCons c) (attr : DamTolAttr) (D : FlexData) {nD2 : Nat}
    (hn : rules = true → 2 ≤ nD2) {ss : Stack} (hs : c.sym = true → ss.reverse = ss)
    (h0 : Spec.flexObjective D.cs D.coeffs D.target ss ≤ 10 ^ 10) :
    ∃ res, flexMain rules c attr D nD2 ss = .ok res ∧ res.Perm ss ∧ (c.sym = true → res.reverse = res) ∧
      res.take (keptPlies c attr) = ss.take (keptPlies c attr) ∧
      res.drop (ss.length - keptPlies c attr) = ss.drop (ss.length - keptPlies c attr) ∧
      (c.sym = true → ss.length % 2 = 1 → nth res (ss.length / 2) = nth ss (ss.length / 2)) ∧
      (res = ss ∨ Spec.flexObjective D.cs D.coeffs D.target res + 1 / 10 ^ 20
        < Spec.flexObjective D.cs D.coeffs D.target ss) ∧
      (rules = true → c.diso = true → InRange ss → ∀ lo, lo ≤ keptPlies c attr →
        Spec.PairsWithin c.deltaAngle ss lo (ss.length - 1 - lo) →
        Spec.PairsWithin c.deltaAngle res lo (ss.length - 1 - lo)) ∧
      (rules = true → c.contig = true → ∀ lo, lo ≤ keptPlies c attr →
        Spec.ContigOK c.nContig (slice ss lo (ss.length - lo)) →
        Spec.ContigOK c.nContig (slice res lo (ss.length - lo))) := by
  have heff : effOf c.sym ss = ss := by
    cases h : c.sym
    · rfl
    · exact effOf_self (hs h)
  have h0' : objOf D c.sym ss ≤ 10 ^ 10 := by unfold objOf; rw [heff]; exact h0
  obtain ⟨s, e1, h⟩ := flexLoop_spec (nD2 := nD2) hc hn h0' ((flexInd ss.length c attr).length - 1) 0 _ (by omega)
    (FlexInv.init rules c attr D ss)
  have hlen := h.perm.length_eq
  have hres : flexMain rules c attr D nD2 ss = .ok (effOf c.sym s.ss) := by
    unfold flexMain
    dsimp only
    rw [e1]
    simp only [bind, Except.bind]
    split_ifs with hsym
    · have : s.ss.take (ss.length / 2 + ss.length % 2) = s.ss.take (ss.length / 2) ++ middleOf s.ss := by
        unfold middleOf
        rw [hlen]
        split_ifs with hodd
        · rw [hodd, List.take_add_one, List.getElem?_eq_getElem (by omega), nth_eq_getElem _ _ (by omega)]
          rfl
        · rw [show ss.length % 2 = 0 by omega]; simp
      unfold effOf fullOf
      rw [this, hsym, hlen]
      rfl
    · unfold effOf
      rw [if_neg hsym]
      rfl
  have hmidl := h.mid
  have hperm : (effOf c.sym s.ss).Perm ss := by
    rw [← heff]
    have hw := h.work
    unfold effOf
    split_ifs with hsym
    · unfold workOf at hw
      rw [if_pos hsym, if_pos hsym] at hw
      have hm : middleOf s.ss = middleOf ss := middleOf_congr hlen (h.mid hsym)
      unfold fullOf
      rw [hm]
      exact (hw.append (List.Perm.refl _)).append ((List.reverse_perm _).trans (hw.trans (List.reverse_perm _).symm))
    · exact h.perm
  have hel := effOf_length c.sym s.ss
  have hsymres : c.sym = true → (effOf c.sym s.ss).reverse = effOf c.sym s.ss := by
    intro hsym
    unfold effOf
    rw [if_pos hsym]
    exact fullOf_reverse _ _ (middleOf_le _)
  have htop : (effOf c.sym s.ss).take (keptPlies c attr) = ss.take (keptPlies c attr) := by
    by_cases hsym : c.sym = true
    · by_cases hk : keptPlies c attr ≤ ss.length / 2
      · unfold effOf fullOf
        rw [if_pos hsym, hlen, List.append_assoc, List.take_append_of_le_length (by simp; omega), List.take_take,
          Nat.min_eq_left hk]
        exact h.top
      · have hW : s.ss.take (ss.length / 2) = ss.take (ss.length / 2) := by
          have := congrArg (List.take (ss.length / 2)) h.top
          rwa [List.take_take, List.take_take, Nat.min_eq_left (by omega)] at this
        have hm : middleOf s.ss = middleOf ss := middleOf_congr hlen (h.mid hsym)
        have : effOf c.sym s.ss = effOf c.sym ss := by
          unfold effOf
          rw [if_pos hsym, if_pos hsym, hlen, hW, hm]
        rw [this, heff]
    · unfold effOf
      rw [if_neg hsym]; exact h.top
  refine ⟨effOf c.sym s.ss, hres, hperm, hsymres, htop, ?_, ?_, ?_, ?_, ?_⟩
  · by_cases hsym : c.sym = true
    · have := congrArg List.reverse htop
      rw [List.reverse_take, List.reverse_take, hsymres hsym, hs hsym, hel, hlen] at this
      exact this
    · unfold effOf
      rw [if_neg hsym]; exact h.bot (by simpa using hsym)
  · intro hsym hodd
    have hm : middleOf s.ss = middleOf ss := middleOf_congr hlen (h.mid hsym)
    have e := nth_full_mid (middleOf s.ss) (s.ss.take (ss.length / 2)) 0 (by rw [middleOf_length]; omega)
    have hW : (s.ss.take (ss.length / 2)).length = ss.length / 2 := by simp; omega
    rw [hW, Nat.add_zero] at e
    unfold effOf
    rw [if_pos hsym, hlen, e, hm]
    unfold middleOf
    rw [if_pos hodd]
    rfl
  · rcases h.better with hb | hb
    · left; rw [hb, heff]
    · right
      rw [h.best] at hb
      unfold objOf at hb
      rwa [heff] at hb
  · intro hr hd hin lo hlo hp
    have := h.diso hr hd hin lo hlo
    rw [heff] at this
    exact this hp
  · intro hr hd lo hlo hp
    have := h.contig hr hd lo hlo
    rw [heff] at this
    rw [contigOK_slice_iff] at hp ⊢
    exact this hp

end Bella
