import Verif.Model.RepairAbdalla
import Verif.Proofs.MembraneEnd
import Verif.Props.Membrane
/-
The repair for the 10% rule of Abdalla: invariant of the loops.
-/
namespace Bella

/-- The table of distances, some entries being discarded. -/
structure DistInv (dist : (Nat → ℚ) → ℚ) (lo : List (Nat → ℚ)) (lam : Nat → ℚ) (opts : List ℚ) : Prop where
  len : opts.length = lo.length * lo.length
  val : ∀ (t : Nat) (v : ℚ), opts[t]? = some v → v = 10 ^ 10 ∨ v = dist (lamAfter lo lam t)

theorem distInv_init (dist : (Nat → ℚ) → ℚ) (lo : List (Nat → ℚ)) (lam : Nat → ℚ) :
    DistInv dist lo lam (distOptions dist lo lam) := by
  constructor
  · simp [distOptions]
  · intro t v h
    unfold distOptions at h
    rw [List.getElem?_map] at h
    cases h2 : (List.range (lo.length * lo.length))[t]? with
    | none => rw [h2] at h; cases h
    | some t' =>
      have ht : t' = t := by
        rw [List.getElem?_eq_some_iff] at h2
        obtain ⟨_, h3⟩ := h2
        simpa using h3.symm
      rw [h2] at h
      simp only [Option.map_some, Option.some.injEq] at h
      subst ht
      split_ifs at h with hd
      · left; exact h.symm
      · right; exact h.symm

theorem distInv_set {dist : (Nat → ℚ) → ℚ} {lo : List (Nat → ℚ)} {lam : Nat → ℚ} {opts : List ℚ}
    (h : DistInv dist lo lam opts) (f : Nat) : DistInv dist lo lam (opts.set f (10 ^ 10)) := by
  constructor
  · simp [h.len]
  · intro t v hv
    rw [List.getElem?_set] at hv
    split_ifs at hv with h1 h2
    · left; exact (Option.some.inj hv).symm
    · exact h.val t v hv

theorem distInv_best {dist : (Nat → ℚ) → ℚ} {lo : List (Nat → ℚ)} {lam : Nat → ℚ} {opts : List ℚ}
    (h : DistInv dist lo lam opts) (hlo : lo ≠ []) :
    argMin opts < lo.length * lo.length ∧
    (opts.getD (argMin opts) 0 = 10 ^ 10 ∨ opts.getD (argMin opts) 0 = dist (lamAfter lo lam (argMin opts))) := by
  have hpos : 0 < lo.length := List.length_pos_iff.2 hlo
  have hne : opts ≠ [] := by
    intro he
    have h1 := h.len
    rw [he, List.length_nil] at h1
    have : 0 < lo.length * lo.length := Nat.mul_pos hpos hpos
    omega
  have hlt : argMin opts < opts.length := (argMin_spec opts hne).1
  refine ⟨by rw [← h.len]; exact hlt, ?_⟩
  have := h.val (argMin opts) (opts.getD (argMin opts) 0) (by
    rw [List.getD_eq_getElem _ _ hlt, List.getElem?_eq_getElem])
  exact this

/-- Induction over the iterations of the loop. -/
theorem abdLoop_inv {dist : (Nat → ℚ) → ℚ} {lo : List (Nat → ℚ)} {step : MemState → List ℚ → Py MemStep}
    (I : MemState → Prop)
    (hskip : ∀ st opts opts', step st opts = .ok (.skip opts') → ∃ f, opts' = opts.set f (10 ^ 10))
    (hmove : ∀ st opts st', I st → DistInv dist lo st.lam opts → step st opts = .ok (.move st') → I st') :
    ∀ (fuel : Nat) (st : MemState) (opts : List ℚ) (st' : MemState), I st → DistInv dist lo st.lam opts →
      abdLoop dist lo step fuel st opts = some (.ok st') → I st' ∧ st'.obj ≤ 1 / 10 ^ 10 := by
  intro fuel
  induction fuel with
  | zero => intro st opts st' _ _ h; cases h
  | succ fuel ih =>
    intro st opts st' hI hO h
    simp only [abdLoop] at h
    split_ifs at h with hc
    · cases hs : step st opts with
      | error e => rw [hs] at h; cases h
      | ok r =>
        rw [hs] at h
        cases r with
        | skip opts' =>
          obtain ⟨f, rfl⟩ := hskip _ _ _ hs
          exact ih st _ st' hI (distInv_set hO f) h
        | move st1 =>
          have hI1 := hmove _ _ _ hI hO hs
          dsimp only at h
          split_ifs at h with hlt
          · cases h; exact ⟨hI1, le_of_lt hlt⟩
          · exact ih st1 _ st' hI1 (distInv_init dist lo st1.lam) h
    · cases h; exact ⟨hI, not_lt.1 hc⟩

/-- The loop raises no error. -/
theorem abdLoop_ok {dist : (Nat → ℚ) → ℚ} {lo : List (Nat → ℚ)} {step : MemState → List ℚ → Py MemStep}
    (I : MemState → Prop)
    (hskip : ∀ st opts opts', step st opts = .ok (.skip opts') → ∃ f, opts' = opts.set f (10 ^ 10))
    (hmove : ∀ st opts st', I st → DistInv dist lo st.lam opts → step st opts = .ok (.move st') → I st')
    (hok : ∀ st opts, I st → DistInv dist lo st.lam opts → ∃ r, step st opts = .ok r) :
    ∀ (fuel : Nat) (st : MemState) (opts : List ℚ), I st → DistInv dist lo st.lam opts →
      abdLoop dist lo step fuel st opts = none ∨ ∃ st', abdLoop dist lo step fuel st opts = some (.ok st') := by
  intro fuel
  induction fuel with
  | zero => intro st opts _ _; exact Or.inl rfl
  | succ fuel ih =>
    intro st opts hI hO
    simp only [abdLoop]
    split_ifs with hc
    · obtain ⟨r, hs⟩ := hok st opts hI hO
      rw [hs]
      cases r with
      | skip opts' =>
        obtain ⟨f, rfl⟩ := hskip _ _ _ hs
        exact ih st _ hI (distInv_set hO f)
      | move st1 =>
        have hI1 := hmove _ _ _ hI hO hs
        dsimp only
        split_ifs with hlt
        · exact Or.inr ⟨_, rfl⟩
        · exact ih st1 _ hI1 (distInv_init dist lo st1.lam)
    · exact Or.inr ⟨_, rfl⟩

/-- The candidate of a state, with the objective expected by `CandOk`. -/
def abdCand (D : MemData) (st : MemState) : MemCand := ⟨st.ss, st.queue, st.lam, memObj D st.lam⟩

/-- Invariant of the repair: `R` is a further property of the plies. -/
structure AInv (dist : (Nat → ℚ) → ℚ) (c : Cons) (ind : List Nat) (D : MemData) (ss0 : Stack) (q0 : List Int)
    (mid : Nat → ℚ) (R : Stack → List Int → Prop) (st : MemState) : Prop where
  binv : BInv c ind st.ss st.queue st.idx
  cand : CandOk c ind D ss0 q0 mid (abdCand D st)
  cur : R st.ss st.queue
  obj : st.obj = 10 ^ 10 ∨ st.obj = dist st.lam

theorem ainv_len {dist : (Nat → ℚ) → ℚ} {c : Cons} {ind : List Nat} {D : MemData} {ss0 : Stack} {q0 : List Int}
    {mid : Nat → ℚ} {R : Stack → List Int → Prop} {st : MemState} (h : AInv dist c ind D ss0 q0 mid R st) :
    st.ss.length = ss0.length ∧ (c.sym = true → Spec.Symmetric st.ss) := by
  obtain ⟨F, T, h1, _⟩ := h.cand.reach
  exact ⟨h1.len, h1.symm⟩

theorem abdCand_move {c : Cons} {ind : List Nat} {D : MemData} {ss0 : Stack} {q0 : List Int} {mid : Nat → ℚ}
    {st st' : MemState} {F T : List Int} (h : CandOk c ind D ss0 q0 mid (abdCand D st))
    (hch : PlyChanges c.sym (fun i => i ∈ ind) st.ss st.queue st'.ss st'.queue F T)
    (hT : ∀ x ∈ T, x ∈ c.angles)
    (hlam : ∀ k, st'.lam k = st.lam k + lamFactor c ss0.length * (csSum c D T k - csSum c D F k)) :
    CandOk c ind D ss0 q0 mid (abdCand D st') := by
  obtain ⟨F0, T0, h1, h2⟩ := h.reach
  refine ⟨⟨F0 ++ F, T0 ++ T, h1.trans hch, ?_⟩, ?_, rfl⟩
  · intro y hy
    rcases List.mem_append.1 hy with h | h
    · exact h2 y h
    · exact hT y h
  · intro k
    have hl : st.lam k = lamFactor c ss0.length * (csSum c D (designAll c.sym st.ss st.queue) k + mid k) := h.lam k
    have hp := csSum_perm c D hch.perm k
    rw [csSum_append, csSum_append] at hp
    show st'.lam k = lamFactor c ss0.length * (csSum c D (designAll c.sym st'.ss st'.queue) k + mid k)
    rw [hlam k, hl]
    have : csSum c D (designAll c.sym st'.ss st'.queue) k =
      csSum c D (designAll c.sym st.ss st.queue) k + csSum c D T k - csSum c D F k := by linarith
    rw [this]
    ring

theorem posAngles_ne {c : Cons} (A : AngleSet c) : c.posAngles ≠ [] := by
  intro he
  obtain ⟨a, ha⟩ := List.exists_mem_of_ne_nil _ A.ne
  have : (a.natAbs : Int) ∈ c.posAngles := by
    rw [A.pos, mem_npUnique]
    exact List.mem_map.2 ⟨a, ha, rfl⟩
  rw [he] at this
  cases this

section
variable {c : Cons} (A : AngleSet c) (dist : (Nat → ℚ) → ℚ) (D : MemData)
  (m : Nat) (ind : List Nat) (ss0 : Stack) (q0 : List Int) (mid : Nat → ℚ)
  (hind : IndOk c.sym m ss0.length ind) (R : Stack → List Int → Prop)
include A hind

theorem abdOne_move
    (hR : ∀ ss q ss' q' a1 a2, R ss q → PlyChanges c.sym (fun i => i ∈ ind) ss q ss' q' [a1] [a2] → R ss' q')
    (st : MemState) (opts : List ℚ) (st1 : MemState) (hI : AInv dist c ind D ss0 q0 mid R st)
    (hO : DistInv dist (lampamOptions3 c D ss0.length) st.lam opts)
    (hs : memStepOne true noTest c ind (lampamOptions3 c D ss0.length) st opts = .ok (.move st1)) :
    AInv dist c ind D ss0 q0 mid R st1 := by
  have hlo : lampamOptions3 c D ss0.length ≠ [] := by
    rw [ne_eq, ← List.length_eq_zero_iff, options3_length c A, List.length_eq_zero_iff]
    exact A.ne
  obtain ⟨ht, hv⟩ := distInv_best hO hlo
  have hl := ainv_len hI
  rw [options3_length c A] at ht
  obtain ⟨a1, a2, hm, hob, hlam, _⟩ := memStepOne_spec A true noTest D m ss0.length ind st st1 opts hl.1 hind hl.2
    hI.binv ht hs
  exact ⟨hm.binv, abdCand_move hI.cand hm.ch hm.inT hm.lam, hR _ _ _ _ a1 a2 hI.cur hm.ch, by rw [hob, hlam]; exact hv⟩

theorem abdTwo_move (lo : List (Nat → ℚ)) (hlo : lampamOptions1 c D ss0.length = .ok lo)
    (hR : ∀ ss q ss' q' a1 a2, R ss q → a1 ∈ c.posAngles → a2 ∈ c.posAngles →
      PlyChanges c.sym (fun i => i ∈ ind) ss q ss' q' [a1, partner a1] [a2, partner a2] → R ss' q')
    (st : MemState) (opts : List ℚ) (st1 : MemState) (hI : AInv dist c ind D ss0 q0 mid R st)
    (hO : DistInv dist lo st.lam opts)
    (hs : memStepTwo true noTest c ind lo st opts = .ok (.move st1)) :
    AInv dist c ind D ss0 q0 mid R st1 := by
  have hne : lo ≠ [] := by
    rw [ne_eq, ← List.length_eq_zero_iff, (options1_spec A D _ lo hlo).1, List.length_eq_zero_iff]
    exact posAngles_ne A
  obtain ⟨ht, hv⟩ := distInv_best hO hne
  have hl := ainv_len hI
  obtain ⟨a1, a2, m1, m2, hm, hob, hlam, _⟩ := memStepTwo_spec A true noTest D m ss0.length ind lo hlo st st1 opts
    hl.1 hind hl.2 hI.binv ht hs
  exact ⟨hm.binv, abdCand_move hI.cand hm.ch hm.inT hm.lam, hR _ _ _ _ a1 a2 hI.cur m1 m2 hm.ch,
    by rw [hob, hlam]; exact hv⟩

theorem abdOne_stepOk (st : MemState) (opts : List ℚ) (hI : AInv dist c ind D ss0 q0 mid R st)
    (hO : DistInv dist (lampamOptions3 c D ss0.length) st.lam opts) :
    ∃ r, memStepOne true noTest c ind (lampamOptions3 c D ss0.length) st opts = .ok r := by
  have hlo : lampamOptions3 c D ss0.length ≠ [] := by
    rw [ne_eq, ← List.length_eq_zero_iff, options3_length c A, List.length_eq_zero_iff]
    exact A.ne
  obtain ⟨ht, hv⟩ := distInv_best hO hlo
  rw [options3_length c A] at ht
  exact memStepOne_ok A true noTest D m ss0.length ind st opts hind hI.binv ht

theorem abdTwo_stepOk (lo : List (Nat → ℚ)) (hlo : lampamOptions1 c D ss0.length = .ok lo)
    (st : MemState) (opts : List ℚ) (hI : AInv dist c ind D ss0 q0 mid R st) (hO : DistInv dist lo st.lam opts) :
    ∃ r, memStepTwo true noTest c ind lo st opts = .ok r := by
  have hne : lo ≠ [] := by
    rw [ne_eq, ← List.length_eq_zero_iff, (options1_spec A D _ lo hlo).1, List.length_eq_zero_iff]
    exact posAngles_ne A
  obtain ⟨ht, hv⟩ := distInv_best hO hne
  have hl := ainv_len hI
  refine memStepTwo_ok A true noTest D (Or.inr ?_) m ss0.length ind lo hlo st opts hl.1 hind hI.binv ht
  intro e l a1 a2
  unfold memGuard guardAbdalla noTest
  rw [if_pos rfl, if_neg (by norm_num)]
  simp

end

theorem abdLastMove_spec {c : Cons} (A : AngleSet c) (dist : (Nat → ℚ) → ℚ)
    (m : Nat) (ind : List Nat) (da db : Nat → ℚ) (a b : Int) (st st' : MemState)
    (hind : IndOk c.sym m st.ss.length ind) (hsy : c.sym = true → Spec.Symmetric st.ss)
    (hbi : BInv c ind st.ss st.queue st.idx) (ha : 0 ≤ a) (hb : b ∈ c.angles)
    (h : abdLastMove dist c da db a b st = .ok (some st')) :
    PlyChanges c.sym (fun i => i ∈ ind) st.ss st.queue st'.ss st'.queue [a] [b] ∧
    (∀ k, st'.lam k = st.lam k + (db k - da k) / 2) ∧ st'.obj = dist st'.lam ∧
    st'.obj + 1 / 10 ^ 20 < st.obj := by
  unfold abdLastMove at h
  obtain ⟨r, hr, h⟩ := bind_ok.1 h
  dsimp only at h
  have e1 := rowOf_pos A ha hr
  have m1 := List.mem_of_getElem? e1
  split_ifs at h with h0
  · obtain ⟨⟨p, b1⟩, hpb, h⟩ := bind_ok.1 h
    obtain ⟨⟨ss', q'⟩, hch, h⟩ := bind_ok.1 h
    dsimp only at h hch
    simp only [Except.ok.injEq, Option.some.injEq] at h
    subst h
    obtain ⟨t, ht1, rfl⟩ := popBucket_spec _ _ _ _ hpb
    have hpos : 0 < (st.idx r).count p := by rw [ht1]; simp
    have hmem := binv_mem hbi e1 hpos
    refine ⟨?_, fun _ => rfl, rfl, h0.2⟩
    exact changePly_spec c.sym ind m _ _ _ _ p a b hind hsy (ne666 A m1) (ne666 A hb)
        (by rcases hmem with h | h
            · exact Or.inl h.1
            · exact Or.inr ⟨h.1, h.2.2⟩) hch
  · simp at h

theorem abdLast_spec {c : Cons} (A : AngleSet c) (dist : (Nat → ℚ) → ℚ) (D : MemData)
    (m : Nat) (ind : List Nat) (ss0 : Stack) (q0 : List Int) (mid : Nat → ℚ)
    (lo : List (Nat → ℚ)) (hlo : lampamOptions1 c D ss0.length = .ok lo)
    (hind : IndOk c.sym m ss0.length ind) (R : Stack → List Int → Prop)
    (hRl : ∀ ss q ss' q' (a b : Int), R ss q →
      PlyChanges c.sym (fun i => i ∈ ind) ss q ss' q' [a] [b] →
      ((a = 0 ∧ b = 90) ∨ (a = 90 ∧ b = 0)) → R ss' q')
    (st st' : MemState) (hI : AInv dist c ind D ss0 q0 mid R st) (hle : st.obj ≤ 1 / 10 ^ 10)
    (h : abdLast dist c lo st = .ok st') :
    CandOk c ind D ss0 q0 mid (abdCand D st') ∧ R st'.ss st'.queue ∧ dist st'.lam ≤ 1 / 10 ^ 10 := by
  have hend : CandOk c ind D ss0 q0 mid (abdCand D st) ∧ R st.ss st.queue ∧ dist st.lam ≤ 1 / 10 ^ 10 := by
    refine ⟨hI.cand, hI.cur, ?_⟩
    rcases hI.obj with h | h
    · rw [h] at hle; norm_num at hle
    · rw [← h]; exact hle
  have hl := ainv_len hI
  obtain ⟨hlen, hopt⟩ := options1_spec A D _ lo hlo
  have hp20 : (0 : ℚ) < 1 / 10 ^ 20 := by norm_num
  unfold abdLast at h
  split at h
  · rename_i i0 i90 h0 h90
    obtain ⟨l0, n0⟩ := idxOf?_row h0
    obtain ⟨l90, n90⟩ := idxOf?_row h90
    have o0 := fun k => hopt i0 l0 k
    have o90 := fun k => hopt i90 l90 k
    rw [n0] at o0
    rw [n90] at o90
    have mem : ∀ i a, i < c.posAngles.length → nth c.posAngles i = a → a ∈ c.angles := by
      intro i a hi ha
      apply (posAngles_mem A _).1
      rw [← ha]
      unfold nth
      rw [List.getD_eq_getElem _ _ hi]
      exact List.getElem_mem _
    have m0 := mem _ _ l0 n0
    have m90 := mem _ _ l90 n90
    have hind' : IndOk c.sym m st.ss.length ind := by rw [hl.1]; exact hind
    obtain ⟨r1, h1, h⟩ := bind_ok.1 h
    cases r1 with
    | some s1 =>
      cases h
      obtain ⟨g1, g2, g3, g4⟩ := abdLastMove_spec A dist m ind _ _ 0 90 st _ hind' hl.2 hI.binv (by omega) m90 h1
      refine ⟨abdCand_move hI.cand g1 (by simp [m90]) ?_, hRl _ _ _ _ 0 90 hI.cur g1 (Or.inl ⟨rfl, rfl⟩), ?_⟩
      · intro k
        rw [g2 k, o0, o90]
        simp [csSum, partner]
        ring
      · rw [← g3]; linarith
    | none =>
      dsimp only at h
      obtain ⟨r2, h2, h⟩ := bind_ok.1 h
      cases r2 with
      | some s2 =>
        cases h
        obtain ⟨g1, g2, g3, g4⟩ := abdLastMove_spec A dist m ind _ _ 90 0 st _ hind' hl.2 hI.binv (by omega) m0 h2
        refine ⟨abdCand_move hI.cand g1 (by simp [m0]) ?_, hRl _ _ _ _ 90 0 hI.cur g1 (Or.inr ⟨rfl, rfl⟩), ?_⟩
        · intro k
          rw [g2 k, o0, o90]
          simp [csSum, partner]
          ring
        · rw [← g3]; linarith
      | none =>
        cases h
        exact hend
  · cases h

theorem abdLastMove_ok {c : Cons} (A : AngleSet c) (dist : (Nat → ℚ) → ℚ)
    (ind : List Nat) (da db : Nat → ℚ) (a b : Int) (st : MemState)
    (hbi : BInv c ind st.ss st.queue st.idx) (ha : a ∈ c.angles) :
    ∃ r, abdLastMove dist c da db a b st = .ok r := by
  unfold abdLastMove
  have e1 : c.angles[c.angles.idxOf a]? = some a := by
    rw [List.getElem?_eq_getElem (List.idxOf_lt_length_of_mem ha)]
    simp
  rw [rowOf_mem A ha]
  simp only [bind, Except.bind]
  split_ifs with h0
  · obtain ⟨p, t, hpb, ht⟩ := popBucket_ok st.idx _ h0.1
    have hpos : 0 < (st.idx (c.angles.idxOf a)).count p := by rw [ht]; simp
    have hmem := binv_mem hbi e1 hpos
    obtain ⟨⟨ss', q'⟩, hch⟩ := changePly_ok c.sym st.ss st.queue p a b
      (fun h6 => by rcases hmem with h | h
                    · exact h.2
                    · exact absurd h6 h.2.1)
    simp only [hpb, hch]
    exact ⟨_, rfl⟩
  · exact ⟨_, rfl⟩

theorem abdLast_ok {c : Cons} (A : AngleSet c) (dist : (Nat → ℚ) → ℚ) (ind : List Nat) (lo : List (Nat → ℚ))
    (st : MemState)
    (hbi : BInv c ind st.ss st.queue st.idx) (h0 : (0 : Int) ∈ c.angles) (h90 : (90 : Int) ∈ c.angles) :
    ∃ r, abdLast dist c lo st = .ok r := by
  have m0 : (0 : Int) ∈ c.posAngles := by
    rw [A.pos, mem_npUnique]
    exact List.mem_map.2 ⟨0, h0, rfl⟩
  have m90 : (90 : Int) ∈ c.posAngles := by
    rw [A.pos, mem_npUnique]
    exact List.mem_map.2 ⟨90, h90, rfl⟩
  obtain ⟨i0, e0⟩ := idxOf?_mem m0
  obtain ⟨i90, e90⟩ := idxOf?_mem m90
  unfold abdLast
  rw [e0, e90]
  dsimp only
  obtain ⟨r1, hr1⟩ := abdLastMove_ok A dist ind (memOptRow lo i0) (memOptRow lo i90) 0 90 st hbi h0
  rw [hr1]
  simp only [bind, Except.bind]
  cases r1 with
  | some s1 => exact ⟨_, rfl⟩
  | none =>
    dsimp only
    obtain ⟨r2, hr2⟩ := abdLastMove_ok A dist ind (memOptRow lo i90) (memOptRow lo i0) 90 0 st hbi h90
    rw [hr2]
    dsimp only
    cases r2 with
    | some s2 => exact ⟨_, rfl⟩
    | none => exact ⟨_, rfl⟩

/-- The initial state satisfies the invariant. -/
theorem abdStart_inv {c : Cons} (A : AngleSet c) (dist : (Nat → ℚ) → ℚ) (attr : DamTolAttr) (D : MemData)
    (ss : Stack) (q : List Int) (hn : ss.length ≤ 6666) (hss : ∀ a ∈ ss, a = 666 ∨ a ∈ c.angles)
    (hq : ∀ a ∈ q, a ∈ c.angles) (hsy : c.sym = true → Spec.Symmetric ss)
    (R : Stack → List Int → Prop) (hR : R ss q)
    (st : MemState) (ind : List Nat) (h : abdStart dist c attr D ss q = .ok (st, ind)) :
    ind = indices1 c attr 100 ss.length ∧
    (c.sym = true → ss.length % 2 ≠ 0 → nth ss (ss.length / 2) ∈ c.angles) ∧
    AInv dist c ind D ss q (midTerm c D ss) R st := by
  unfold abdStart at h
  obtain ⟨lam, h1, h⟩ := bind_ok.1 h
  obtain ⟨⟨ind', b⟩, h3, h⟩ := bind_ok.1 h
  simp only [Except.ok.injEq, Prod.mk.injEq] at h
  obtain ⟨rfl, rfl⟩ := h
  obtain ⟨rfl, hb⟩ := calcIndPlies_spec A attr 100 ss q _ _ hn hss hq h3
  have hsp := calcLampamA_spec A D ss q lam hss hq h1
  exact ⟨rfl, hsp.2.1, hb, ⟨⟨[], [], PlyChanges.refl hsy, by simp⟩, hsp.2.2, rfl⟩, hR, Or.inr rfl⟩

theorem abdStart_ok {c : Cons} (A : AngleSet c) (dist : (Nat → ℚ) → ℚ) (attr : DamTolAttr) (D : MemData)
    (ss : Stack) (q : List Int) (hne : ss ≠ []) (hss : ∀ a ∈ ss, a = 666 ∨ a ∈ c.angles)
    (hq : ∀ a ∈ q, a ∈ c.angles)
    (hm : c.sym = true → ss.length % 2 ≠ 0 → nth ss (ss.length / 2) ∈ c.angles) :
    ∃ r, abdStart dist c attr D ss q = .ok r := by
  obtain ⟨lam, hl⟩ := calcLampamA_ok A D ss q hne hss hq hm
  have hind := indices1_ok c attr 100 ss.length
  obtain ⟨b, hb⟩ := memFillPlies_ok A ss (indices1 c attr 100 ss.length) (fun _ => []) (by
    intro i hi
    have := hind.hi i hi
    have hlt : i < ss.length := by omega
    apply hss
    unfold nth
    rw [List.getD_eq_getElem _ _ hlt]
    exact List.getElem_mem _)
  obtain ⟨b', hb'⟩ := fillQueue_ok A q b hq
  unfold abdStart calcIndPlies
  simp only [hl, hb, hb', bind, Except.bind]
  exact ⟨_, rfl⟩

/-- A change of one ply keeps any property of this form; a change of a couple keeps it under `posAngles`. -/
structure Keeps (c : Cons) (ind : List Nat) (R : Stack → List Int → Prop) : Prop where
  one : c.bal = false → ∀ ss q ss' q' a1 a2, R ss q →
    PlyChanges c.sym (fun i => i ∈ ind) ss q ss' q' [a1] [a2] → R ss' q'
  two : c.bal = true → ∀ ss q ss' q' a1 a2, R ss q → a1 ∈ c.posAngles → a2 ∈ c.posAngles →
    PlyChanges c.sym (fun i => i ∈ ind) ss q ss' q' [a1, partner a1] [a2, partner a2] → R ss' q'
  last : c.bal = true → ∀ ss q ss' q' (a b : Int), R ss q →
    PlyChanges c.sym (fun i => i ∈ ind) ss q ss' q' [a] [b] → ((a = 0 ∧ b = 90) ∨ (a = 90 ∧ b = 0)) → R ss' q'

/-- The repair starting from a partial laminate and a queue. -/
def abdRun (dist : (Nat → ℚ) → ℚ) (c : Cons) (attr : DamTolAttr) (D : MemData) (fuel : Nat) (ss : Stack)
    (q : List Int) : Option (Py MemState) :=
  if c.bal then abdTwo dist c attr D fuel ss q else abdOne dist c attr D fuel ss q

theorem abdRun_spec {c : Cons} (A : AngleSet c) (dist : (Nat → ℚ) → ℚ) (attr : DamTolAttr) (D : MemData) (fuel : Nat)
    (ss : Stack) (q : List Int) (hn : ss.length ≤ 6666) (hss : ∀ a ∈ ss, a = 666 ∨ a ∈ c.angles)
    (hq : ∀ a ∈ q, a ∈ c.angles) (hsy : c.sym = true → Spec.Symmetric ss)
    (R : Stack → List Int → Prop) (hR : R ss q) (hk : Keeps c (indices1 c attr 100 ss.length) R)
    (st' : MemState) (h : abdRun dist c attr D fuel ss q = some (.ok st')) :
    CandOk c (indices1 c attr 100 ss.length) D ss q (midTerm c D ss) (abdCand D st') ∧
    (c.sym = true → ss.length % 2 ≠ 0 → nth ss (ss.length / 2) ∈ c.angles) ∧
    R st'.ss st'.queue ∧ dist st'.lam ≤ 1 / 10 ^ 10 := by
  have hind := indices1_ok c attr 100 ss.length
  unfold abdRun at h
  split_ifs at h with hb
  · unfold abdTwo at h
    cases h1 : abdStart dist c attr D ss q with
    | error e => rw [h1] at h; cases h
    | ok p =>
      obtain ⟨st, ind⟩ := p
      obtain ⟨rfl, hmid, hI⟩ := abdStart_inv A dist attr D ss q hn hss hq hsy R hR st ind h1
      rw [h1] at h
      dsimp only at h
      cases h2 : lampamOptions1 c D ss.length with
      | error e => rw [h2] at h; cases h
      | ok lo =>
        rw [h2] at h
        dsimp only at h
        cases h3 : abdLoop dist lo (memStepTwo true noTest c (indices1 c attr 100 ss.length) lo) fuel st
            (distOptions dist lo st.lam) with
        | none => rw [h3] at h; cases h
        | some r =>
          cases r with
          | error e => rw [h3] at h; cases h
          | ok st1 =>
            rw [h3] at h
            simp only [Option.some.injEq] at h
            obtain ⟨hI1, hle⟩ := abdLoop_inv (AInv dist c (indices1 c attr 100 ss.length) D ss q (midTerm c D ss) R)
              (fun st opts opts' h => by obtain ⟨f, hf, _⟩ := memStepTwo_skip h; exact ⟨f, hf⟩)
              (fun st opts st' hI hO hs =>
                abdTwo_move A dist D _ _ ss q _ hind R lo h2 (hk.two hb) st opts st' hI hO hs)
              fuel st _ st1 hI (distInv_init dist lo st.lam) h3
            obtain ⟨g1, g2, g3⟩ := abdLast_spec A dist D _ _ ss q _ lo h2 hind R (hk.last hb) st1 st' hI1 hle h
            exact ⟨g1, hmid, g2, g3⟩
  · unfold abdOne at h
    cases h1 : abdStart dist c attr D ss q with
    | error e => rw [h1] at h; cases h
    | ok p =>
      obtain ⟨st, ind⟩ := p
      obtain ⟨rfl, hmid, hI⟩ := abdStart_inv A dist attr D ss q hn hss hq hsy R hR st ind h1
      rw [h1] at h
      dsimp only at h
      obtain ⟨hI1, hle⟩ := abdLoop_inv (AInv dist c (indices1 c attr 100 ss.length) D ss q (midTerm c D ss) R)
        (fun st opts opts' h => ⟨_, memStepOne_skip h⟩)
        (fun st opts st' hI hO hs =>
          abdOne_move A dist D _ _ ss q _ hind R (hk.one (by simpa using hb)) st opts st' hI hO hs)
        fuel st _ st' hI (distInv_init dist _ st.lam) h
      refine ⟨hI1.cand, hmid, hI1.cur, ?_⟩
      rcases hI1.obj with h | h
      · rw [h] at hle; norm_num at hle
      · rw [← h]; exact hle

/-- The repair raises no error: it returns or runs for ever. -/
theorem abdRun_ok {c : Cons} (A : AngleSet c) (dist : (Nat → ℚ) → ℚ) (attr : DamTolAttr) (D : MemData) (fuel : Nat)
    (h090 : (0 : Int) ∈ c.angles ∧ (90 : Int) ∈ c.angles)
    (ss : Stack) (q : List Int) (hne : ss ≠ []) (hn : ss.length ≤ 6666) (hss : ∀ a ∈ ss, a = 666 ∨ a ∈ c.angles)
    (hq : ∀ a ∈ q, a ∈ c.angles) (hsy : c.sym = true → Spec.Symmetric ss)
    (hm : c.sym = true → ss.length % 2 ≠ 0 → nth ss (ss.length / 2) ∈ c.angles) :
    abdRun dist c attr D fuel ss q = none ∨ ∃ st', abdRun dist c attr D fuel ss q = some (.ok st') := by
  have hind := indices1_ok c attr 100 ss.length
  obtain ⟨⟨st, ind⟩, h1⟩ := abdStart_ok A dist attr D ss q hne hss hq hm
  obtain ⟨rfl, hmid, hI⟩ := abdStart_inv A dist attr D ss q hn hss hq hsy (fun _ _ => True) trivial st ind h1
  unfold abdRun
  split_ifs with hb
  · unfold abdTwo
    rw [h1]
    dsimp only
    obtain ⟨lo, h2⟩ := options1_ok A D ss.length
    rw [h2]
    dsimp only
    have hmv := fun (st : MemState) opts st' hI hO hs => abdTwo_move A dist D _ _ ss q (midTerm c D ss) hind (fun _ _ => True)
      lo h2 (fun _ _ _ _ _ _ _ _ _ _ => trivial) st opts st' hI hO hs
    have hsk : ∀ st opts opts', memStepTwo true noTest c (indices1 c attr 100 ss.length) lo st opts = .ok (.skip opts') →
        ∃ f, opts' = opts.set f (10 ^ 10) := fun st opts opts' h => by
      obtain ⟨f, hf, _⟩ := memStepTwo_skip h; exact ⟨f, hf⟩
    rcases abdLoop_ok (AInv dist c (indices1 c attr 100 ss.length) D ss q (midTerm c D ss) (fun _ _ => True))
      hsk hmv (fun st opts hI hO => abdTwo_stepOk A dist D _ _ ss q _ hind _ lo h2 st opts hI hO)
      fuel st _ hI (distInv_init dist lo st.lam) with h3 | ⟨st1, h3⟩
    · rw [h3]; exact Or.inl rfl
    · rw [h3]
      dsimp only
      obtain ⟨hI1, _⟩ := abdLoop_inv _ hsk hmv fuel st _ st1 hI (distInv_init dist lo st.lam) h3
      obtain ⟨r, hr⟩ := abdLast_ok A dist _ lo st1 hI1.binv h090.1 h090.2
      exact Or.inr ⟨r, by rw [hr]⟩
  · unfold abdOne
    rw [h1]
    dsimp only
    exact abdLoop_ok (AInv dist c (indices1 c attr 100 ss.length) D ss q (midTerm c D ss) (fun _ _ => True))
      (fun st opts opts' h => ⟨_, memStepOne_skip h⟩)
      (fun st opts st' hI hO hs => abdOne_move A dist D _ _ ss q _ hind _ (fun _ _ _ _ _ _ _ _ => trivial) st opts st' hI hO hs)
      (fun st opts hI hO => abdOne_stepOk A dist D _ _ ss q _ hind _ st opts hI hO)
      fuel st _ hI (distInv_init dist _ st.lam)

end Bella
