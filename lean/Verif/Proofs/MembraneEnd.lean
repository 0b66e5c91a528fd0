import Verif.Props.MembraneTen
/-
Termination of the membrane refinement, and absence of errors.
-/
namespace Bella

theorem changePly_ok (sym : Bool) (ss : Stack) (q : List Int) (p : Nat) (a b : Int) (h : p = 6666 → a ∈ q) :
    ∃ r, changePly sym ss q p a b = .ok r := by
  unfold changePly
  split_ifs with h1 h2
  · exact ⟨_, rfl⟩
  · exact absurd (h h1) h2
  · exact ⟨_, rfl⟩

theorem popBucket_ok (b : Buckets) (r : Nat) (h : b r ≠ []) : ∃ p t, popBucket b r = .ok (p, b.upd r t) ∧ b r = p :: t := by
  unfold popBucket
  cases hb : b r with
  | nil => exact absurd hb h
  | cons p t => exact ⟨p, t, rfl, rfl⟩

/-- One iteration of repair_membrane_1_no_ipo raises no error. -/
theorem memStepOne_ok {c : Cons} (A : AngleSet c) (abd : Bool) (dist : (Nat → ℚ) → ℚ) (D : MemData)
    (m n : Nat) (ind : List Nat) (st : MemState) (opts : List ℚ)
    (hind : IndOk c.sym m n ind) (hb : BInv c ind st.ss st.queue st.idx)
    (ht : argMin opts < c.angles.length * c.angles.length) :
    ∃ r, memStepOne abd dist c ind (lampamOptions3 c D n) st opts = .ok r := by
  unfold memStepOne
  rw [options3_length c A]
  dsimp only
  have hr1 : argMin opts / c.angles.length < c.angles.length := Nat.div_lt_of_lt_mul ht
  generalize argMin opts / c.angles.length = r1 at *
  generalize argMin opts % c.angles.length = r2 at *
  have e1 := nth_angles hr1
  generalize nth c.angles r1 = a1 at *
  split_ifs with h0
  · exact ⟨_, rfl⟩
  cases memGuard abd dist guard10One st.exc (lamAfter (lampamOptions3 c D n) st.lam (argMin opts)) a1 (nth c.angles r2) with
  | none => exact ⟨_, rfl⟩
  | some e =>
    obtain ⟨p, t, hp, hpt⟩ := popBucket_ok st.idx r1 h0
    have hmem := binv_mem hb e1 (by rw [hpt]; simp : 0 < (st.idx r1).count p)
    obtain ⟨sq, hsq⟩ := changePly_ok c.sym st.ss st.queue p a1 (nth c.angles r2)
      (fun h6 => by rcases hmem with h | h
                    · exact h.2
                    · exact absurd h6 h.2.1)
    obtain ⟨b', hb'⟩ := addOne_ok c.sym ind (st.idx.upd r1 t) r2 p hind.nodup
    simp only [hp, hsq, hb', bind, Except.bind]
    exact ⟨_, rfl⟩

theorem rowOf_couple {c : Cons} (A : AngleSet c) {a : Int} (ha : a ∈ c.posAngles) :
    ∃ r r', rowOf c a = .ok r ∧ rowOf c (-a) = .ok r' := by
  have hp := posAngles_mem A ha
  refine ⟨c.angles.idxOf a, ?_⟩
  by_cases h9 : a = 90
  · refine ⟨c.angles.idxOf a, rowOf_mem A hp.1, ?_⟩
    rw [rowOf_iff A]
    right
    refine ⟨by omega, ?_⟩
    rw [← h9, List.getElem?_eq_getElem (List.idxOf_lt_length_of_mem hp.1)]
    simp
  · refine ⟨c.angles.idxOf (-a), rowOf_mem A hp.1, ?_⟩
    have := hp.2.2
    unfold partner at this
    rw [if_neg h9] at this
    exact rowOf_mem A this

theorem options1_ok {c : Cons} (A : AngleSet c) (D : MemData) (n : Nat) : ∃ lo, lampamOptions1 c D n = .ok lo := by
  unfold lampamOptions1
  have : ∀ l : List Int, (∀ a ∈ l, a ∈ c.posAngles) → ∃ lo, l.mapM (fun (a : Int) => do
    let r ← rowOf c a
    let r' ← rowOf c (-a)
    (.ok (fun (k : Nat) => lamFactor c n * (D.cosSin r k + D.cosSin r' k)) : Py (Nat → ℚ))) = .ok lo := by
    intro l
    induction l with
    | nil => intro _; exact ⟨[], rfl⟩
    | cons a l ih =>
      intro h
      obtain ⟨lo, hlo⟩ := ih (fun a ha => h a (by simp [ha]))
      obtain ⟨r, r', h1, h2⟩ := rowOf_couple A (h a (by simp))
      rw [List.mapM_cons]
      simp only [h1, h2, bind, Except.bind] at hlo ⊢
      rw [hlo]
      exact ⟨_, rfl⟩
  exact this _ (fun a ha => ha)

/-- One iteration of repair_membrane_1_ipo raises no error. -/
theorem memStepTwo_ok {c : Cons} (A : AngleSet c) (abd : Bool) (dist : (Nat → ℚ) → ℚ) (D : MemData)
    (habd : abd = false ∨ ∀ e l a1 a2, memGuard abd dist guard10Pair e l a1 a2 ≠ none)
    (m n : Nat) (ind : List Nat) (lo : List (Nat → ℚ)) (hlo : lampamOptions1 c D n = .ok lo)
    (st : MemState) (opts : List ℚ) (hn : st.ss.length = n)
    (hind : IndOk c.sym m n ind) (hb : BInv c ind st.ss st.queue st.idx)
    (ht : argMin opts < lo.length * lo.length) :
    ∃ r, memStepTwo abd dist c ind lo st opts = .ok r := by
  subst hn
  obtain ⟨hlen, -⟩ := options1_spec A D _ lo hlo
  unfold memStepTwo
  dsimp only
  have hL : 0 < lo.length := by
    by_contra hc
    have : lo.length = 0 := by omega
    rw [this] at ht
    omega
  have hr1 : argMin opts / lo.length < c.posAngles.length := by rw [← hlen]; exact Nat.div_lt_of_lt_mul ht
  have hr2 : argMin opts % lo.length < c.posAngles.length := by rw [← hlen]; exact Nat.mod_lt _ hL
  have m1 : nth c.posAngles (argMin opts / lo.length) ∈ c.posAngles := by
    unfold nth; rw [List.getD_eq_getElem _ _ hr1]; exact List.getElem_mem _
  have m2 : nth c.posAngles (argMin opts % lo.length) ∈ c.posAngles := by
    unfold nth; rw [List.getD_eq_getElem _ _ hr2]; exact List.getElem_mem _
  generalize nth c.posAngles (argMin opts / lo.length) = a1 at *
  generalize nth c.posAngles (argMin opts % lo.length) = a2 at *
  obtain ⟨r1, r1m, g1, g1m⟩ := rowOf_couple A m1
  obtain ⟨r2, r2m, g2, g2m⟩ := rowOf_couple A m2
  have p1 := posAngles_mem A m1
  have p2 := posAngles_mem A m2
  have e1 := rowOf_pos A p1.2.1 g1
  have e2 := rowOf_pos A p2.2.1 g2
  have e1m := rowOf_neg_partner A m1 g1m
  have e2m := rowOf_neg_partner A m2 g2m
  simp only [g1, g1m, g2, g2m, bind, Except.bind]
  split_ifs with h0
  · exact ⟨_, rfl⟩
  cases hgd : memGuard abd dist guard10Pair st.exc (lamAfter lo st.lam (argMin opts)) a1 a2 with
  | none =>
    rcases habd with rfl | h
    · exact ⟨_, rfl⟩
    · exact absurd hgd (h _ _ _ _)
  | some e =>
    -- there are two plies to be changed
    have hne1 : st.idx r1 ≠ [] ∧ ∀ p t, st.idx r1 = p :: t → (st.idx.upd r1 t) r1m ≠ [] := by
      unfold hasCouple at h0
      have hrr : r1m = r1 ↔ partner a1 = a1 := by
        constructor
        · rintro rfl; rw [e1] at e1m; exact (Option.some.inj e1m).symm
        · intro hh; rw [hh] at e1m; exact row_unique A e1m e1
      split_ifs at h0 with hz
      · have hpa : partner a1 = a1 := by
          unfold partner
          rcases hz with rfl | rfl <;> simp
        have h2 : 2 ≤ (st.idx r1).length := by
          rw [Bool.not_eq_false, decide_eq_true_eq] at h0; exact h0
        have h3 := hrr.2 hpa
        refine ⟨fun hh => by rw [hh] at h2; simp at h2, fun p t ht => ?_⟩
        rw [h3, upd_apply, if_pos rfl]
        rintro rfl
        rw [ht] at h2
        simp at h2
      · have h4 : 1 ≤ (st.idx r1).length ∧ 1 ≤ (st.idx r1m).length := by
          rw [Bool.not_eq_false, Bool.and_eq_true, decide_eq_true_eq, decide_eq_true_eq] at h0; exact h0
        refine ⟨fun hh => by rw [hh] at h4; simp at h4, fun p t ht => ?_⟩
        rw [upd_apply]
        split_ifs with hh
        · exfalso
          have := hrr.1 hh
          unfold partner at this
          split_ifs at this with h9
          · exact hz (Or.inr h9)
          · have := p1.2.1
            exact hz (Or.inl (by omega))
        · intro hh2
          rw [hh2] at h4
          simp at h4
    obtain ⟨q1, t1, hpb1, ht1⟩ := popBucket_ok st.idx r1 hne1.1
    obtain ⟨q2, t2, hpb2, ht2⟩ := popBucket_ok (st.idx.upd r1 t1) r1m (hne1.2 q1 t1 ht1)
    have hpos1 : 0 < (st.idx r1).count q1 := by rw [ht1]; simp
    have hmem1 := binv_mem hb e1 hpos1
    obtain ⟨⟨ss1, qu1⟩, hch1⟩ := changePly_ok c.sym st.ss st.queue q1 a1 a2
      (fun h6 => by rcases hmem1 with h | h
                    · exact h.2
                    · exact absurd h6 h.2.1)
    have raw1 := bmove_raw st.idx r1 r2 q1 t1 ht1
    have bi1 := binv_move A hind hb e1 e2 hpos1 hch1 raw1
    have hsecond : ∃ t2', (((st.idx.upd r1 t1).upd r2 ((st.idx.upd r1 t1) r2 ++ [q1])) r1m) = q2 :: t2' := by
      rw [upd_apply]
      split_ifs with hr
      · subst hr
        rw [ht2]
        exact ⟨t2 ++ [q1], rfl⟩
      · exact ⟨t2, ht2⟩
    obtain ⟨t2', ht2'⟩ := hsecond
    have hpos2 : 0 < (((st.idx.upd r1 t1).upd r2 ((st.idx.upd r1 t1) r2 ++ [q1])) r1m).count q2 := by
      rw [ht2']; simp
    have hmem2 := binv_mem bi1 e1m hpos2
    obtain ⟨⟨ss2, qu2⟩, hch2⟩ := changePly_ok c.sym ss1 qu1 q2 (partner a1) (partner a2)
      (fun h6 => by rcases hmem2 with h | h
                    · exact h.2
                    · exact absurd h6 h.2.1)
    obtain ⟨b', hb'⟩ := addTwo_ok c.sym ind ((st.idx.upd r1 t1).upd r1m t2) r2 q1 r2m q2 hind.nodup
    simp only [hpb1, hpb2, hch1, hch2, hb']
    exact ⟨_, rfl⟩

/-! ### Termination -/

theorem countP_set_lt (l : List ℚ) (i : Nat) (hi : i < l.length) (h : l.getD i 0 < 10 ^ 10) :
    (l.set i (10 ^ 10)).countP (fun v => decide (v < 10 ^ 10)) < l.countP (fun v => decide (v < 10 ^ 10)) := by
  induction l generalizing i with
  | nil => simp at hi
  | cons x l ih =>
    cases i with
    | zero =>
      have hx : x < 10 ^ 10 := by simpa using h
      rw [List.set_cons_zero, List.countP_cons_of_neg (by simp), List.countP_cons_of_pos (by simpa using hx)]
      omega
    | succ i =>
      rw [List.set_cons_succ, List.countP_cons, List.countP_cons]
      have := ih i (by simpa using hi) (by simpa using h)
      omega

/-- The loop ends, and without error: each change decreases the objective by more than 1e-20, and each
discarded option is discarded for good. -/
theorem memLoop_end {D : MemData} {lo : List (Nat → ℚ)} (hlo : lo ≠ [])
    {step : MemState → List ℚ → Py MemStep} (I : MemState → Prop)
    (hle : ∀ st, I st → st.obj ≤ 10 ^ 10)
    (hskip : ∀ st opts opts', I st → OptInv D lo st.lam opts → step st opts = .ok (.skip opts') →
      opts' = opts.set (argMin opts) (10 ^ 10))
    (hmove : ∀ st opts st', I st → OptInv D lo st.lam opts →
      opts.getD (argMin opts) 0 + 1 / 10 ^ 20 < st.obj → step st opts = .ok (.move st') →
      I st' ∧ st'.obj = opts.getD (argMin opts) 0)
    (hok : ∀ st opts, I st → OptInv D lo st.lam opts →
      opts.getD (argMin opts) 0 + 1 / 10 ^ 20 < st.obj → ∃ r, step st opts = .ok r) :
    ∀ (A : Nat) (B : Nat) (st : MemState) (opts : List ℚ), I st → OptInv D lo st.lam opts →
      st.obj * 10 ^ 20 ≤ A → opts.countP (fun v => decide (v < 10 ^ 10)) ≤ B →
      ∃ st' N, ∀ fuel, N ≤ fuel → memLoop D lo step fuel st opts = some (.ok st') := by
  intro A
  induction A with
  | zero =>
    intro B st opts hI hO hA hB
    refine ⟨st, 1, ?_⟩
    intro fuel hf
    obtain ⟨k, rfl⟩ : ∃ k, fuel = k + 1 := ⟨fuel - 1, by omega⟩
    unfold memLoop
    rw [if_neg]
    rintro ⟨_, h2⟩
    push_cast at hA
    have : (0 : ℚ) < 1 / 10 ^ 10 := by norm_num
    linarith
  | succ A ihA =>
    intro B
    induction B with
    | zero =>
      intro st opts hI hO hA hB
      refine ⟨st, 1, ?_⟩
      intro fuel hf
      obtain ⟨k, rfl⟩ : ∃ k, fuel = k + 1 := ⟨fuel - 1, by omega⟩
      unfold memLoop
      rw [if_neg]
      rintro ⟨h1, _⟩
      obtain ⟨hlt, hv⟩ := optInv_best hO hlo st.obj (hle st hI) h1
      have hlt' : argMin opts < opts.length := by rw [hO.len]; exact hlt
      have hmem : opts.getD (argMin opts) 0 ∈ opts := by
        rw [List.getD_eq_getElem _ _ hlt']; exact List.getElem_mem _
      have h0 : opts.countP (fun v => decide (v < 10 ^ 10)) = 0 := by omega
      rw [List.countP_eq_zero] at h0
      have := h0 _ hmem
      have h3 := hle st hI
      have : (0 : ℚ) < 1 / 10 ^ 20 := by norm_num
      simp only [decide_eq_true_eq, not_lt] at *
      linarith
    | succ B ihB =>
      intro st opts hI hO hA hB
      by_cases hc : opts.getD (argMin opts) 0 + 1 / 10 ^ 20 < st.obj ∧ st.obj > 1 / 10 ^ 10
      · obtain ⟨hlt, hv⟩ := optInv_best hO hlo st.obj (hle st hI) hc.1
        have hlt' : argMin opts < opts.length := by rw [hO.len]; exact hlt
        have hmem : opts.getD (argMin opts) 0 ∈ opts := by
          rw [List.getD_eq_getElem _ _ hlt']; exact List.getElem_mem _
        obtain ⟨r, hr⟩ := hok st opts hI hO hc.1
        cases r with
        | skip opts' =>
          have he := hskip st opts opts' hI hO hr
          subst he
          have hsm : opts.getD (argMin opts) 0 < 10 ^ 10 := by
            have h3 := hle st hI
            have : (0 : ℚ) < 1 / 10 ^ 20 := by norm_num
            linarith [hc.1]
          have hcnt := countP_set_lt opts (argMin opts) hlt' hsm
          obtain ⟨st', N, hN⟩ := ihB st (opts.set (argMin opts) (10 ^ 10)) hI (optInv_set hO _) hA (by omega)
          refine ⟨st', N + 1, ?_⟩
          intro fuel hf
          obtain ⟨k, rfl⟩ : ∃ k, fuel = k + 1 := ⟨fuel - 1, by omega⟩
          unfold memLoop
          rw [if_pos hc, hr]
          exact hN k (by omega)
        | move st1 =>
          obtain ⟨hI1, hobj⟩ := hmove st opts st1 hI hO hc.1 hr
          by_cases hs : st1.obj < 1 / 10 ^ 10
          · refine ⟨st1, 1, ?_⟩
            intro fuel hf
            obtain ⟨k, rfl⟩ : ∃ k, fuel = k + 1 := ⟨fuel - 1, by omega⟩
            unfold memLoop
            rw [if_pos hc, hr]
            dsimp only
            rw [if_pos hs]
          · have hA1 : st1.obj * 10 ^ 20 ≤ A := by
              rw [hobj]
              have h1 := hc.1
              push_cast at hA
              have : opts.getD (argMin opts) 0 * 10 ^ 20 + 1 < st.obj * 10 ^ 20 := by
                have h2 := mul_lt_mul_of_pos_right h1 (by norm_num : (0 : ℚ) < 10 ^ 20)
                have h3 : (opts.getD (argMin opts) 0 + 1 / 10 ^ 20) * 10 ^ 20 = opts.getD (argMin opts) 0 * 10 ^ 20 + 1 := by
                  rw [add_mul]; norm_num
                rw [h3] at h2
                exact h2
              linarith
            obtain ⟨st', N, hN⟩ := ihA _ st1 (objOptions D lo st1.lam) hI1 (optInv_init D lo st1.lam) hA1 (le_refl _)
            refine ⟨st', N + 1, ?_⟩
            intro fuel hf
            obtain ⟨k, rfl⟩ : ∃ k, fuel = k + 1 := ⟨fuel - 1, by omega⟩
            unfold memLoop
            rw [if_pos hc, hr]
            dsimp only
            rw [if_neg hs]
            exact hN k (by omega)
      · refine ⟨st, 1, ?_⟩
        intro fuel hf
        obtain ⟨k, rfl⟩ : ∃ k, fuel = k + 1 := ⟨fuel - 1, by omega⟩
        unfold memLoop
        rw [if_neg hc]

/-! ### The initial state exists -/

theorem mapM_row_ok {c : Cons} (A : AngleSet c) (l : List Int) (h : ∀ a ∈ l, a ∈ c.angles) :
    ∃ r, l.mapM (rowOf c) = .ok r := by
  induction l with
  | nil => exact ⟨[], rfl⟩
  | cons a l ih =>
    obtain ⟨r, hr⟩ := ih (fun a ha => h a (by simp [ha]))
    rw [List.mapM_cons, rowOf_mem A (h a (by simp))]
    simp only [bind, Except.bind, hr]
    exact ⟨_, rfl⟩

theorem memFillPlies_ok {c : Cons} (A : AngleSet c) (ss : Stack) (is : List Nat) (b : Buckets)
    (hang : ∀ i ∈ is, nth ss i = 666 ∨ nth ss i ∈ c.angles) : ∃ b', memFillPlies c ss is b = .ok b' := by
  induction is generalizing b with
  | nil => exact ⟨b, rfl⟩
  | cons i is ih =>
    unfold memFillPlies
    split_ifs with h6
    · rcases hang i (by simp) with h | h
      · exact absurd h h6
      · rw [rowOf_mem A h]
        exact ih _ (fun j hj => hang j (by simp [hj]))
    · exact ih _ (fun j hj => hang j (by simp [hj]))

theorem fillQueue_ok {c : Cons} (A : AngleSet c) (q : List Int) (b : Buckets)
    (hq : ∀ a ∈ q, a ∈ c.angles) : ∃ b', fillQueue c q b = .ok b' := by
  induction q generalizing b with
  | nil => exact ⟨b, rfl⟩
  | cons a q ih =>
    unfold fillQueue
    rw [rowOf_mem A (hq a (by simp))]
    exact ih _ (fun j hj => hq j (by simp [hj]))

theorem calcLampamA_ok {c : Cons} (A : AngleSet c) (D : MemData) (ss : Stack) (q : List Int) (hne : ss ≠ [])
    (hss : ∀ a ∈ ss, a = 666 ∨ a ∈ c.angles) (hq : ∀ a ∈ q, a ∈ c.angles)
    (hm : c.sym = true → ss.length % 2 ≠ 0 → nth ss (ss.length / 2) ∈ c.angles) :
    ∃ lam, calcLampamA c D ss q = .ok lam := by
  have hk : ∀ l : List Int, (∀ a ∈ l, a ∈ ss) → ∀ a ∈ l.filter (fun a => decide (a ≠ 666)), a ∈ c.angles := by
    intro l hl a ha
    have h1 := List.mem_filter.1 ha
    rcases hss a (hl a h1.1) with h | h
    · simp [h] at h1
    · exact h
  obtain ⟨rq, hrq⟩ := mapM_row_ok A q hq
  unfold calcLampamA
  split_ifs with h0 h1 h2
  · exact absurd (List.length_eq_zero_iff.1 h0) hne
  · obtain ⟨r, hr⟩ := mapM_row_ok A _ (hk ss (fun a h => h))
    simp only [hr, hrq, bind, Except.bind]
    exact ⟨_, rfl⟩
  · obtain ⟨r, hr⟩ := mapM_row_ok A _ (hk (ss.take (ss.length / 2)) (fun a h => List.mem_of_mem_take h))
    have hs : c.sym = true := by cases hh : c.sym <;> simp_all
    obtain ⟨rm, hrm⟩ := mapM_row_ok A [nth ss (ss.length / 2)] (by
      intro a ha; rw [List.mem_singleton] at ha; rw [ha]; exact hm hs h2)
    simp only [hr, hrq, hrm, bind, Except.bind]
    exact ⟨_, rfl⟩
  · obtain ⟨r, hr⟩ := mapM_row_ok A _ (hk (ss.take (ss.length / 2)) (fun a h => List.mem_of_mem_take h))
    simp only [hr, hrq, bind, Except.bind]
    exact ⟨_, rfl⟩

theorem memStart_ok {c : Cons} (A : AngleSet c) (attr : DamTolAttr) (D : MemData) (abd : Bool) (mini : Mini10)
    (ss : Stack) (q : List Int) (hne : ss ≠ []) (hss : ∀ a ∈ ss, a = 666 ∨ a ∈ c.angles)
    (hq : ∀ a ∈ q, a ∈ c.angles)
    (hm : c.sym = true → ss.length % 2 ≠ 0 → nth ss (ss.length / 2) ∈ c.angles ∧
      (abd = false → nth ss (ss.length / 2) = 0 ∨ nth ss (ss.length / 2) = 90)) :
    ∃ r, memStart c attr D abd mini ss q = .ok r := by
  obtain ⟨lam, hl⟩ := calcLampamA_ok A D ss q hne hss hq (fun h1 h2 => (hm h1 h2).1)
  have hex : ∃ e, startExcess abd c.sym ss q mini = .ok e := by
    unfold startExcess calcExcess10
    cases abd
    · simp only [Bool.false_eq_true, if_false]
      split_ifs with h1 h2
      · exfalso
        rcases (hm h1 h2.1).2 rfl with h | h
        · exact h2.2.1 h
        · exact h2.2.2 h
      · exact ⟨_, rfl⟩
      · exact ⟨_, rfl⟩
    · exact ⟨_, rfl⟩
  obtain ⟨e, he⟩ := hex
  have hib : ∃ r, calcIndPlies c attr D.pA ss q = .ok r := by
    unfold calcIndPlies
    have I := indices1_ok c attr D.pA ss.length
    obtain ⟨b, hb⟩ := memFillPlies_ok A ss (indices1 c attr D.pA ss.length) (fun _ => []) (fun i hi => by
      have hlt : i < ss.length := by have := I.hi i hi; omega
      apply hss
      unfold nth
      rw [List.getD_eq_getElem _ _ hlt]
      exact List.getElem_mem hlt)
    obtain ⟨b', hb'⟩ := fillQueue_ok A q b hq
    simp only [hb, hb', bind, Except.bind]
    exact ⟨_, rfl⟩
  obtain ⟨ib, hib⟩ := hib
  unfold memStart
  simp only [hl, he, hib, bind, Except.bind]
  exact ⟨_, rfl⟩

theorem lastMove_ok {c : Cons} (abd : Bool) (dist : (Nat → ℚ) → ℚ) (D : MemData)
    (ind : List Nat) (da db : Nat → ℚ) (a b : Int) (s : Nat) (st : MemState) (A : AngleSet c)
    (hbi : BInv c ind st.ss st.queue st.idx) (ha : a ∈ c.angles) :
    ∃ r, lastMove abd dist c D da db a b s st = .ok r := by
  unfold lastMove
  have e1 : c.angles[c.angles.idxOf a]? = some a := by
    rw [List.getElem?_eq_getElem (List.idxOf_lt_length_of_mem ha)]
    simp
  rw [rowOf_mem A ha]
  simp only [bind, Except.bind]
  split_ifs with h0
  · obtain ⟨p, t, hp, hpt⟩ := popBucket_ok st.idx _ h0.1
    have hmem := binv_mem hbi e1 (by rw [hpt]; simp : 0 < (st.idx (c.angles.idxOf a)).count p)
    obtain ⟨sq, hsq⟩ := changePly_ok c.sym st.ss st.queue p a b
      (fun h6 => by rcases hmem with h | h
                    · exact h.2
                    · exact absurd h6 h.2.1)
    simp only [hp, hsq]
    exact ⟨_, rfl⟩
  · exact ⟨_, rfl⟩

theorem idxOf?_mem {l : List Int} {a : Int} (h : a ∈ l) : ∃ i, l.idxOf? a = some i := by
  cases h2 : l.idxOf? a with
  | some i => exact ⟨i, rfl⟩
  | none =>
    rw [List.idxOf?_eq_none_iff] at h2
    exact absurd h h2

theorem memLast_ok {c : Cons} (A : AngleSet c) (abd : Bool) (dist : (Nat → ℚ) → ℚ) (D : MemData)
    (ind : List Nat) (lo : List (Nat → ℚ)) (st : MemState)
    (hbi : BInv c ind st.ss st.queue st.idx) (h0 : (0 : Int) ∈ c.angles) (h90 : (90 : Int) ∈ c.angles) :
    ∃ r, memLast abd dist c D lo st = .ok r := by
  have m0 : (0 : Int) ∈ c.posAngles := by
    rw [A.pos, mem_npUnique]
    exact List.mem_map.2 ⟨0, h0, rfl⟩
  have m90 : (90 : Int) ∈ c.posAngles := by
    rw [A.pos, mem_npUnique]
    exact List.mem_map.2 ⟨90, h90, rfl⟩
  obtain ⟨i0, e0⟩ := idxOf?_mem m0
  obtain ⟨i90, e90⟩ := idxOf?_mem m90
  unfold memLast
  rw [e0, e90]
  dsimp only
  obtain ⟨r1, hr1⟩ := lastMove_ok abd dist D ind (memOptRow lo i0) (memOptRow lo i90) 0 90 0 st A hbi h0
  obtain ⟨r2, hr2⟩ := lastMove_ok abd dist D ind (memOptRow lo i90) (memOptRow lo i0) 90 0 1 st A hbi h90
  simp only [hr1, bind, Except.bind]
  cases r1 with
  | some s => exact ⟨_, rfl⟩
  | none =>
    simp only [hr2]
    cases r2 <;> exact ⟨_, rfl⟩

end Bella
