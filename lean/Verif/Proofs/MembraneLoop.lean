import Verif.Proofs.MembraneStep
/-
The loops of the membrane refinement: invariants and termination.
-/
namespace Bella

/-- The table of options holds objectives of single changes, or 1e10. -/
structure OptInv (D : MemData) (lo : List (Nat → ℚ)) (lam : Nat → ℚ) (opts : List ℚ) : Prop where
  len : opts.length = lo.length * lo.length
  val : ∀ (t : Nat) (v : ℚ), opts[t]? = some v → v = 10 ^ 10 ∨ v = memObj D (lamAfter lo lam t)

theorem optInv_init (D : MemData) (lo : List (Nat → ℚ)) (lam : Nat → ℚ) : OptInv D lo lam (objOptions D lo lam) := by
  constructor
  · simp [objOptions]
  · intro t v h
    unfold objOptions at h
    rw [List.getElem?_map] at h
    cases h2 : (List.range (lo.length * lo.length))[t]? with
    | none => rw [h2] at h; cases h
    | some t' =>
      rw [h2] at h
      obtain ⟨h3, h4⟩ := List.getElem?_eq_some_iff.1 h2
      simp only [List.getElem_range] at h4
      subst h4
      simp only [Option.map_some, Option.some.injEq] at h
      split_ifs at h
      · exact Or.inl h.symm
      · exact Or.inr h.symm

theorem optInv_set {D : MemData} {lo : List (Nat → ℚ)} {lam : Nat → ℚ} {opts : List ℚ} (h : OptInv D lo lam opts) (f : Nat) :
    OptInv D lo lam (opts.set f (10 ^ 10)) := by
  constructor
  · simp [h.len]
  · intro t v hv
    rw [List.getElem?_set] at hv
    split_ifs at hv with h1 h2
    · left; exact (Option.some.inj hv).symm
    · exact h.val t v hv

/-- The option chosen by the loop is the objective of a change, better than the current objective. -/
theorem optInv_best {D : MemData} {lo : List (Nat → ℚ)} {lam : Nat → ℚ} {opts : List ℚ} (h : OptInv D lo lam opts)
    (hlo : lo ≠ []) (obj : ℚ) (hle : obj ≤ 10 ^ 10) (hlt : opts.getD (argMin opts) 0 + 1 / 10 ^ 20 < obj) :
    argMin opts < lo.length * lo.length ∧
    opts.getD (argMin opts) 0 = memObj D (lamAfter lo lam (argMin opts)) := by
  have hpos : 0 < lo.length := List.length_pos_iff.2 hlo
  have hne : opts ≠ [] := by
    intro he
    have := h.len
    rw [he] at this
    have : 0 < lo.length * lo.length := Nat.mul_pos hpos hpos
    simp_all
  obtain ⟨h1, _, _⟩ := argMin_spec opts hne
  refine ⟨by rw [← h.len]; exact h1, ?_⟩
  have e : opts[argMin opts]? = some (opts.getD (argMin opts) 0) := by
    rw [List.getD_eq_getElem _ _ h1, List.getElem?_eq_getElem]
  rcases h.val _ _ e with h2 | h2
  · exfalso
    rw [h2] at hlt
    have : (0 : ℚ) < 1 / 10 ^ 20 := by norm_num
    linarith
  · exact h2

/-- Induction over the iterations of the loop. -/
theorem memLoop_inv {D : MemData} {lo : List (Nat → ℚ)} {step : MemState → List ℚ → Py MemStep}
    (I : MemState → Prop)
    (hskip : ∀ st opts opts', step st opts = .ok (.skip opts') → ∃ f, opts' = opts.set f (10 ^ 10))
    (hmove : ∀ st opts st', I st → OptInv D lo st.lam opts →
      opts.getD (argMin opts) 0 + 1 / 10 ^ 20 < st.obj → step st opts = .ok (.move st') → I st') :
    ∀ (fuel : Nat) (st : MemState) (opts : List ℚ) (st' : MemState), I st → OptInv D lo st.lam opts →
      memLoop D lo step fuel st opts = some (.ok st') → I st' := by
  intro fuel
  induction fuel with
  | zero => intro st opts st' _ _ h; cases h
  | succ fuel ih =>
    intro st opts st' hI hO h
    simp only [memLoop] at h
    split_ifs at h with hc
    · cases hs : step st opts with
      | error e => rw [hs] at h; cases h
      | ok r =>
        rw [hs] at h
        cases r with
        | skip opts' =>
          obtain ⟨f, rfl⟩ := hskip _ _ _ hs
          exact ih st _ st' hI (optInv_set hO f) h
        | move st1 =>
          have hI1 := hmove _ _ _ hI hO hc.1 hs
          dsimp only at h
          split_ifs at h
          · cases h; exact hI1
          · exact ih st1 _ st' hI1 (optInv_init D lo st1.lam) h
    · cases h; exact hI

theorem memStepOne_skip {abd : Bool} {dist : (Nat → ℚ) → ℚ} {c : Cons} {ind : List Nat} {lo : List (Nat → ℚ)}
    {st : MemState} {opts opts' : List ℚ} (h : memStepOne abd dist c ind lo st opts = .ok (.skip opts')) :
    opts' = opts.set (argMin opts) (10 ^ 10) := by
  unfold memStepOne at h
  dsimp only at h
  split_ifs at h with h0
  · simp only [Except.ok.injEq, MemStep.skip.injEq] at h
    exact h.symm
  · split at h
    · simp only [Except.ok.injEq, MemStep.skip.injEq] at h
      exact h.symm
    · obtain ⟨_, _, h⟩ := bind_ok.1 h
      obtain ⟨_, _, h⟩ := bind_ok.1 h
      obtain ⟨_, _, h⟩ := bind_ok.1 h
      cases h

theorem memStepTwo_skip {abd : Bool} {dist : (Nat → ℚ) → ℚ} {c : Cons} {ind : List Nat} {lo : List (Nat → ℚ)}
    {st : MemState} {opts opts' : List ℚ} (h : memStepTwo abd dist c ind lo st opts = .ok (.skip opts')) :
    ∃ f, opts' = opts.set f (10 ^ 10) ∧ (abd = false → f = argMin opts) := by
  unfold memStepTwo at h
  dsimp only at h
  obtain ⟨r1, _, h⟩ := bind_ok.1 h
  obtain ⟨_, _, h⟩ := bind_ok.1 h
  obtain ⟨r2, _, h⟩ := bind_ok.1 h
  obtain ⟨_, _, h⟩ := bind_ok.1 h
  split_ifs at h with h0
  · simp only [Except.ok.injEq, MemStep.skip.injEq] at h
    exact ⟨_, h.symm, fun _ => rfl⟩
  · split at h
    · obtain ⟨f, hf, h⟩ := bind_ok.1 h
      simp only [Except.ok.injEq, MemStep.skip.injEq] at h
      refine ⟨f, h.symm, fun ha => ?_⟩
      unfold failPos at hf
      rw [if_neg (by simp [ha])] at hf
      exact (Except.ok.inj hf).symm
    · obtain ⟨_, _, h⟩ := bind_ok.1 h
      obtain ⟨_, _, h⟩ := bind_ok.1 h
      obtain ⟨_, _, h⟩ := bind_ok.1 h
      obtain ⟨_, _, h⟩ := bind_ok.1 h
      obtain ⟨_, _, h⟩ := bind_ok.1 h
      cases h

/-- A candidate is obtained from the initial laminate by changes of plies which may be changed, and its
lamination parameters and objective are its own. -/
structure CandOk (c : Cons) (ind : List Nat) (D : MemData) (ss0 : Stack) (q0 : List Int) (mid : Nat → ℚ)
    (x : MemCand) : Prop where
  reach : ∃ F T, PlyChanges c.sym (fun i => i ∈ ind) ss0 q0 x.ss x.queue F T ∧ ∀ y ∈ T, y ∈ c.angles
  lam : ∀ k, x.lam k = lamFactor c ss0.length * (csSum c D (designAll c.sym x.ss x.queue) k + mid k)
  obj : x.obj = memObj D x.lam

/-- The current candidate. -/
def MemState.cand (st : MemState) : MemCand := ⟨st.ss, st.queue, st.lam, st.obj⟩

/-- Invariant of the refinement; `R ss queue lam exc` is a further property of the candidates. -/
structure MInv (c : Cons) (ind : List Nat) (D : MemData) (ss0 : Stack) (q0 : List Int) (mid : Nat → ℚ)
    (R : Stack → List Int → (Nat → ℚ) → (Nat → ℚ) → Prop) (x0 : MemCand) (st : MemState) : Prop where
  binv : BInv c ind st.ss st.queue st.idx
  outs : ∀ x ∈ st.out, CandOk c ind D ss0 q0 mid x ∧ ∃ e, R x.ss x.queue x.lam e
  cur : R st.ss st.queue st.lam st.exc
  dec : st.out.Pairwise (fun a b => a.obj < b.obj)
  head : ∃ t, st.out = st.cand :: t
  last : st.out.getLast? = some x0
  le : st.obj ≤ 10 ^ 10

theorem MInv.candOk {c : Cons} {ind : List Nat} {D : MemData} {ss0 : Stack} {q0 : List Int} {mid : Nat → ℚ}
    {R : Stack → List Int → (Nat → ℚ) → (Nat → ℚ) → Prop} {x0 : MemCand} {st : MemState}
    (h : MInv c ind D ss0 q0 mid R x0 st) : CandOk c ind D ss0 q0 mid st.cand := by
  obtain ⟨t, ht⟩ := h.head
  exact (h.outs _ (by rw [ht]; simp)).1

/-- A candidate after a move. -/
theorem candOk_move {c : Cons} {ind : List Nat} {D : MemData} {ss0 : Stack} {q0 : List Int} {mid : Nat → ℚ}
    {st st' : MemState} {F T : List Int} (h : CandOk c ind D ss0 q0 mid st.cand)
    (hm : MemMove c ind D ss0.length st st' F T) (hobj : st'.obj = memObj D st'.lam) :
    CandOk c ind D ss0 q0 mid st'.cand := by
  obtain ⟨F0, T0, h1, h2⟩ := h.reach
  refine ⟨⟨F0 ++ F, T0 ++ T, h1.trans hm.ch, ?_⟩, ?_, hobj⟩
  · intro y hy
    rcases List.mem_append.1 hy with h | h
    · exact h2 y h
    · exact hm.inT y h
  · intro k
    have hl : st.lam k = lamFactor c ss0.length * (csSum c D (designAll c.sym st.ss st.queue) k + mid k) := h.lam k
    have hp := csSum_perm c D hm.ch.perm k
    rw [csSum_append, csSum_append] at hp
    show st'.lam k = lamFactor c ss0.length * (csSum c D (designAll c.sym st'.ss st'.queue) k + mid k)
    rw [hm.lam k, hl]
    have : csSum c D (designAll c.sym st'.ss st'.queue) k =
      csSum c D (designAll c.sym st.ss st.queue) k + csSum c D T k - csSum c D F k := by linarith
    rw [this]
    ring

/-- The invariant after a move to a better candidate. -/
theorem minv_move {c : Cons} {ind : List Nat} {D : MemData} {ss0 : Stack} {q0 : List Int} {mid : Nat → ℚ}
    {R : Stack → List Int → (Nat → ℚ) → (Nat → ℚ) → Prop} {x0 : MemCand}
    {st st' : MemState} {F T : List Int} (h : MInv c ind D ss0 q0 mid R x0 st)
    (hm : MemMove c ind D ss0.length st st' F T) (hobj : st'.obj = memObj D st'.lam)
    (hlt : st'.obj + 1 / 10 ^ 20 < st.obj) (hR : R st'.ss st'.queue st'.lam st'.exc) :
    MInv c ind D ss0 q0 mid R x0 st' := by
  have hc := candOk_move h.candOk hm hobj
  have hlt' : st'.obj < st.obj := by
    have : (0 : ℚ) < 1 / 10 ^ 20 := by norm_num
    linarith
  obtain ⟨t, ht⟩ := h.head
  refine ⟨hm.binv, ?_, hR, ?_, ⟨st.out, hm.out⟩, ?_, le_trans hlt'.le h.le⟩
  · intro x hx
    rw [hm.out] at hx
    rcases List.mem_cons.1 hx with rfl | hx
    · exact ⟨hc, st'.exc, hR⟩
    · exact h.outs x hx
  · rw [hm.out, List.pairwise_cons]
    refine ⟨?_, h.dec⟩
    intro x hx
    rw [ht] at hx
    have hd := h.dec
    rw [ht, List.pairwise_cons] at hd
    rcases List.mem_cons.1 hx with rfl | hx
    · exact hlt'
    · exact lt_trans hlt' (hd.1 x hx)
  · rw [hm.out, ht, List.getLast?_cons_cons, ← ht]
    exact h.last

theorem minv_len {c : Cons} {ind : List Nat} {D : MemData} {ss0 : Stack} {q0 : List Int} {mid : Nat → ℚ}
    {R : Stack → List Int → (Nat → ℚ) → (Nat → ℚ) → Prop} {x0 : MemCand} {st : MemState}
    (h : MInv c ind D ss0 q0 mid R x0 st) :
    st.ss.length = ss0.length ∧ (c.sym = true → Spec.Symmetric st.ss) := by
  obtain ⟨F, T, h1, _⟩ := h.candOk.reach
  exact ⟨h1.len, h1.symm⟩

/-- The loop of repair_membrane_1_no_ipo (and its Abdalla variant). -/
theorem memLoopOne_inv {c : Cons} (A : AngleSet c) (abd : Bool) (dist : (Nat → ℚ) → ℚ) (D : MemData)
    (m : Nat) (ind : List Nat) (ss0 : Stack) (q0 : List Int) (mid : Nat → ℚ)
    (hind : IndOk c.sym m ss0.length ind)
    (R : Stack → List Int → (Nat → ℚ) → (Nat → ℚ) → Prop)
    (hR : ∀ ss q lam e ss' q' lam' e' a1 a2, R ss q lam e → ss.length = ss0.length →
      PlyChanges c.sym (fun i => i ∈ ind) ss q ss' q' [a1] [a2] → a1 ∈ c.angles → a2 ∈ c.angles →
      memGuard abd dist guard10One e lam' a1 a2 = some e' → R ss' q' lam' e')
    (x0 : MemCand) (fuel : Nat) (st st' : MemState) (opts : List ℚ)
    (hI : MInv c ind D ss0 q0 mid R x0 st) (hO : OptInv D (lampamOptions3 c D ss0.length) st.lam opts)
    (h : memLoop D (lampamOptions3 c D ss0.length)
      (memStepOne abd dist c ind (lampamOptions3 c D ss0.length)) fuel st opts = some (.ok st')) :
    MInv c ind D ss0 q0 mid R x0 st' := by
  have hlo : lampamOptions3 c D ss0.length ≠ [] := by
    rw [ne_eq, ← List.length_eq_zero_iff, options3_length c A, List.length_eq_zero_iff]
    exact A.ne
  refine memLoop_inv (MInv c ind D ss0 q0 mid R x0) ?_ ?_ fuel st opts st' hI hO h
  · intro st opts opts' h
    exact ⟨_, memStepOne_skip h⟩
  · intro st opts st1 hI hO hlt hs
    obtain ⟨ht, hv⟩ := optInv_best hO hlo st.obj hI.le hlt
    have hl := minv_len hI
    rw [options3_length c A] at ht
    obtain ⟨a1, a2, hm, hob, hlam, hg⟩ := memStepOne_spec A abd dist D m ss0.length ind st st1 opts hl.1 hind hl.2
      hI.binv ht hs
    refine minv_move hI hm ?_ ?_ ?_
    · rw [hob, hv, hlam]
    · rw [hob]; exact hlt
    · exact hR _ _ _ _ _ _ _ _ a1 a2 hI.cur hl.1 hm.ch (hm.inF a1 (by simp)) (hm.inT a2 (by simp)) hg

/-- The loop of repair_membrane_1_ipo (and its Abdalla variant). -/
theorem memLoopTwo_inv {c : Cons} (A : AngleSet c) (abd : Bool) (dist : (Nat → ℚ) → ℚ) (D : MemData)
    (m : Nat) (ind : List Nat) (ss0 : Stack) (q0 : List Int) (mid : Nat → ℚ)
    (lo : List (Nat → ℚ)) (hlo : lampamOptions1 c D ss0.length = .ok lo)
    (hind : IndOk c.sym m ss0.length ind)
    (R : Stack → List Int → (Nat → ℚ) → (Nat → ℚ) → Prop)
    (hR : ∀ ss q lam e ss' q' lam' e' a1 a2, R ss q lam e → ss.length = ss0.length →
      PlyChanges c.sym (fun i => i ∈ ind) ss q ss' q' [a1, partner a1] [a2, partner a2] →
      a1 ∈ c.posAngles → a2 ∈ c.posAngles →
      memGuard abd dist guard10Pair e lam' a1 a2 = some e' → R ss' q' lam' e')
    (x0 : MemCand) (fuel : Nat) (st st' : MemState) (opts : List ℚ)
    (hI : MInv c ind D ss0 q0 mid R x0 st) (hO : OptInv D lo st.lam opts)
    (h : memLoop D lo (memStepTwo abd dist c ind lo) fuel st opts = some (.ok st')) :
    MInv c ind D ss0 q0 mid R x0 st' := by
  have hne : lo ≠ [] := by
    rw [ne_eq, ← List.length_eq_zero_iff, (options1_spec A D _ lo hlo).1, List.length_eq_zero_iff]
    intro he
    obtain ⟨a, ha⟩ := List.exists_mem_of_ne_nil _ A.ne
    have : (a.natAbs : Int) ∈ c.posAngles := by
      rw [A.pos, mem_npUnique]
      exact List.mem_map.2 ⟨a, ha, rfl⟩
    rw [he] at this
    cases this
  refine memLoop_inv (MInv c ind D ss0 q0 mid R x0) ?_ ?_ fuel st opts st' hI hO h
  · intro st opts opts' h
    obtain ⟨f, hf, _⟩ := memStepTwo_skip h
    exact ⟨f, hf⟩
  · intro st opts st1 hI hO hlt hs
    obtain ⟨ht, hv⟩ := optInv_best hO hne st.obj hI.le hlt
    have hl := minv_len hI
    obtain ⟨a1, a2, m1, m2, hm, hob, hlam, hg⟩ := memStepTwo_spec A abd dist D m ss0.length ind lo hlo st st1 opts hl.1
      hind hl.2 hI.binv ht hs
    refine minv_move hI hm ?_ ?_ ?_
    · rw [hob, hv, hlam]
    · rw [hob]; exact hlt
    · exact hR _ _ _ _ _ _ _ _ a1 a2 hI.cur hl.1 hm.ch m1 m2 hg

end Bella
