import Verif.Proofs.MembraneLoop
import Verif.Spec.Membrane
import Verif.Props.MinCounts
/-
The membrane refinement as a whole: initial state, loop, last change.
-/
namespace Bella

/-- What is known of the returned lists. -/
structure MOut (c : Cons) (ind : List Nat) (D : MemData) (ss0 : Stack) (q0 : List Int) (mid : Nat → ℚ)
    (R : Stack → List Int → (Nat → ℚ) → (Nat → ℚ) → Prop) (x0 : MemCand) (out : List MemCand) : Prop where
  outs : ∀ x ∈ out, CandOk c ind D ss0 q0 mid x ∧ ∃ e, R x.ss x.queue x.lam e
  dec : out.Pairwise (fun a b => a.obj < b.obj)
  last : out.getLast? = some x0

theorem MInv.out {c : Cons} {ind : List Nat} {D : MemData} {ss0 : Stack} {q0 : List Int} {mid : Nat → ℚ}
    {R : Stack → List Int → (Nat → ℚ) → (Nat → ℚ) → Prop} {x0 : MemCand} {st : MemState}
    (h : MInv c ind D ss0 q0 mid R x0 st) : MOut c ind D ss0 q0 mid R x0 st.out :=
  ⟨h.outs, h.dec, h.last⟩

theorem idxOf?_row {l : List Int} {a : Int} {i : Nat} (h : l.idxOf? a = some i) : i < l.length ∧ nth l i = a := by
  induction l generalizing i with
  | nil => simp at h
  | cons x l ih =>
    rw [List.idxOf?_cons] at h
    by_cases hx : x = a
    · simp [hx] at h
      subst h
      simp [nth, hx]
    · simp [hx] at h
      obtain ⟨j, hj, rfl⟩ := h
      have := ih hj
      simp only [List.length_cons]
      refine ⟨by omega, ?_⟩
      simpa [nth] using this.2

theorem lastMove_spec {c : Cons} (A : AngleSet c) (abd : Bool) (dist : (Nat → ℚ) → ℚ) (D : MemData)
    (m : Nat) (ind : List Nat) (da db : Nat → ℚ) (a b : Int) (s : Nat) (st st' : MemState)
    (hind : IndOk c.sym m st.ss.length ind) (hsy : c.sym = true → Spec.Symmetric st.ss)
    (hbi : BInv c ind st.ss st.queue st.idx) (ha : 0 ≤ a) (hb : b ∈ c.angles)
    (h : lastMove abd dist c D da db a b s st = .ok (some st')) :
    a ∈ c.angles ∧ PlyChanges c.sym (fun i => i ∈ ind) st.ss st.queue st'.ss st'.queue [a] [b] ∧
    (∀ k, st'.lam k = st.lam k + (db k - da k) / 2) ∧ st'.obj = memObj D st'.lam ∧
    st'.obj + 1 / 10 ^ 20 < st.obj ∧ st'.out = st'.cand :: st.out ∧
    lastOk abd dist st.exc s st'.lam = true := by
  unfold lastMove at h
  obtain ⟨r, hr, h⟩ := bind_ok.1 h
  dsimp only at h
  have e1 := rowOf_pos A ha hr
  have m1 := List.mem_of_getElem? e1
  split_ifs at h with h0
  · obtain ⟨⟨p, b1⟩, hpb, h⟩ := bind_ok.1 h
    obtain ⟨⟨ss', q'⟩, hch, h⟩ := bind_ok.1 h
    dsimp only at h hch
    simp only [Except.ok.injEq, Option.some.injEq] at h
    subst h
    obtain ⟨t, ht1, rfl⟩ := popBucket_spec _ _ _ _ hpb
    have hpos : 0 < (st.idx r).count p := by rw [ht1]; simp
    have hmem := binv_mem hbi e1 hpos
    refine ⟨m1, ?_, fun _ => rfl, rfl, h0.2.2, rfl, h0.2.1⟩
    exact changePly_spec c.sym ind m _ _ _ _ p a b hind hsy (ne666 A m1) (ne666 A hb)
        (by rcases hmem with h | h
            · exact Or.inl h.1
            · exact Or.inr ⟨h.1, h.2.2⟩) hch
  · simp at h

/-- The last change keeps what is known of the candidates. -/
theorem mout_last {c : Cons} {ind : List Nat} {D : MemData} {ss0 : Stack} {q0 : List Int} {mid : Nat → ℚ}
    {R : Stack → List Int → (Nat → ℚ) → (Nat → ℚ) → Prop} {x0 : MemCand}
    {st st' : MemState} {a b : Int} (h : MInv c ind D ss0 q0 mid R x0 st)
    (hb : b ∈ c.angles)
    (hch : PlyChanges c.sym (fun i => i ∈ ind) st.ss st.queue st'.ss st'.queue [a] [b])
    (hlam : ∀ k, st'.lam k = st.lam k + lamFactor c ss0.length * (csSum c D [b] k - csSum c D [a] k))
    (hobj : st'.obj = memObj D st'.lam) (hlt : st'.obj + 1 / 10 ^ 20 < st.obj)
    (hout : st'.out = st'.cand :: st.out) (hR : ∃ e, R st'.ss st'.queue st'.lam e) :
    MOut c ind D ss0 q0 mid R x0 st'.out := by
  have hlt' : st'.obj < st.obj := by
    have : (0 : ℚ) < 1 / 10 ^ 20 := by norm_num
    linarith
  have hok := h.candOk
  obtain ⟨F0, T0, h1, h2⟩ := hok.reach
  have hc : CandOk c ind D ss0 q0 mid st'.cand := by
    refine ⟨⟨F0 ++ [a], T0 ++ [b], h1.trans hch, ?_⟩, ?_, hobj⟩
    · intro y hy
      rcases List.mem_append.1 hy with h | h
      · exact h2 y h
      · rw [List.mem_singleton] at h; rw [h]; exact hb
    · intro k
      have hl : st.lam k = lamFactor c ss0.length * (csSum c D (designAll c.sym st.ss st.queue) k + mid k) := hok.lam k
      have hp := csSum_perm c D hch.perm k
      rw [csSum_append, csSum_append] at hp
      show st'.lam k = lamFactor c ss0.length * (csSum c D (designAll c.sym st'.ss st'.queue) k + mid k)
      rw [hlam k, hl]
      have : csSum c D (designAll c.sym st'.ss st'.queue) k =
        csSum c D (designAll c.sym st.ss st.queue) k + csSum c D [b] k - csSum c D [a] k := by linarith
      rw [this]
      ring
  obtain ⟨t, ht⟩ := h.head
  refine ⟨?_, ?_, ?_⟩
  · intro x hx
    rw [hout] at hx
    rcases List.mem_cons.1 hx with rfl | hx
    · exact ⟨hc, hR⟩
    · exact h.outs x hx
  · rw [hout, List.pairwise_cons]
    refine ⟨?_, h.dec⟩
    intro x hx
    rw [ht] at hx
    have hd := h.dec
    rw [ht, List.pairwise_cons] at hd
    rcases List.mem_cons.1 hx with rfl | hx
    · exact hlt'
    · exact lt_trans hlt' (hd.1 x hx)
  · rw [hout, ht, List.getLast?_cons_cons, ← ht]
    exact h.last

theorem memLast_spec {c : Cons} (A : AngleSet c) (abd : Bool) (dist : (Nat → ℚ) → ℚ) (D : MemData)
    (m : Nat) (ind : List Nat) (ss0 : Stack) (q0 : List Int) (mid : Nat → ℚ)
    (lo : List (Nat → ℚ)) (hlo : lampamOptions1 c D ss0.length = .ok lo)
    (hind : IndOk c.sym m ss0.length ind)
    (R : Stack → List Int → (Nat → ℚ) → (Nat → ℚ) → Prop)
    (hRl : ∀ ss q lam e ss' q' lam' (a b : Int) (s : Nat), R ss q lam e → ss.length = ss0.length →
      PlyChanges c.sym (fun i => i ∈ ind) ss q ss' q' [a] [b] →
      ((a = 0 ∧ b = 90 ∧ s = 0) ∨ (a = 90 ∧ b = 0 ∧ s = 1)) →
      lastOk abd dist e s lam' = true → ∃ e', R ss' q' lam' e')
    (x0 : MemCand) (st st' : MemState) (hI : MInv c ind D ss0 q0 mid R x0 st)
    (h : memLast abd dist c D lo st = .ok st') :
    MOut c ind D ss0 q0 mid R x0 st'.out := by
  unfold memLast at h
  obtain ⟨hlen, hopt⟩ := options1_spec A D _ lo hlo
  have hl := minv_len hI
  split at h
  · rename_i i0 i90 h0 h90
    obtain ⟨l0, n0⟩ := idxOf?_row h0
    obtain ⟨l90, n90⟩ := idxOf?_row h90
    have o0 : ∀ k, memOptRow lo i0 k = lamFactor c ss0.length * csSum c D [0, 0] k := by
      intro k; rw [hopt i0 l0 k, n0]; rfl
    have o90 : ∀ k, memOptRow lo i90 k = lamFactor c ss0.length * csSum c D [90, 90] k := by
      intro k; rw [hopt i90 l90 k, n90]; rfl
    have mem : ∀ i a, i < c.posAngles.length → nth c.posAngles i = a → a ∈ c.angles := by
      intro i a hi ha
      apply (posAngles_mem A _).1
      rw [← ha]
      unfold nth
      rw [List.getD_eq_getElem _ _ hi]
      exact List.getElem_mem _
    have m0 := mem _ _ l0 n0
    have m90 := mem _ _ l90 n90
    have hind' : IndOk c.sym m st.ss.length ind := by rw [hl.1]; exact hind
    obtain ⟨r1, h1, h⟩ := bind_ok.1 h
    cases r1 with
    | some s1 =>
      cases h
      obtain ⟨_, g1, g2, g3, g4, g5, g6⟩ := lastMove_spec A abd dist D m ind _ _ 0 90 0 st _ hind' hl.2 hI.binv
        (by omega) m90 h1
      refine mout_last hI m90 g1 ?_ g3 g4 g5 ?_
      · intro k
        rw [g2 k, o0, o90]
        simp [csSum]
        ring
      · exact hRl _ _ _ _ _ _ _ 0 90 0 hI.cur hl.1 g1 (Or.inl ⟨rfl, rfl, rfl⟩) g6
    | none =>
      dsimp only at h
      obtain ⟨r2, h2, h⟩ := bind_ok.1 h
      cases r2 with
      | some s2 =>
        cases h
        obtain ⟨_, g1, g2, g3, g4, g5, g6⟩ := lastMove_spec A abd dist D m ind _ _ 90 0 1 st _ hind' hl.2 hI.binv
          (by omega) m0 h2
        refine mout_last hI m0 g1 ?_ g3 g4 g5 ?_
        · intro k
          rw [g2 k, o0, o90]
          simp [csSum]
          ring
        · exact hRl _ _ _ _ _ _ _ 90 0 1 hI.cur hl.1 g1 (Or.inr ⟨rfl, rfl, rfl⟩) g6
      | none =>
        cases h
        exact hI.out
  · cases h

/-! ### The initial state -/

/-- Half of the row of the middle ply of a symmetric laminate. -/
def midTerm (c : Cons) (D : MemData) (ss : Stack) (k : Nat) : ℚ :=
  if c.sym = true ∧ ss.length % 2 ≠ 0 then 1 / 2 * csOf c D (nth ss (ss.length / 2)) k else 0

theorem sumRows_mapM {c : Cons} (A : AngleSet c) (D : MemData) (l : List Int) (rows : List Nat)
    (hl : ∀ a ∈ l, a ∈ c.angles) (h : l.mapM (rowOf c) = .ok rows) (k : Nat) :
    sumRows D rows k = csSum c D l k := by
  have hf := mapM_inv _ _ _ h
  clear h
  induction hf with
  | nil => rfl
  | @cons a r l rows h1 _ ih =>
    have := ih (fun a ha => hl a (by simp [ha]))
    have e := rowOf_mem A (hl a (by simp))
    rw [h1] at e
    have e' : r = c.angles.idxOf a := Except.ok.inj e
    unfold sumRows csSum csOf at *
    simp only [List.map_cons, List.sum_cons]
    rw [this, e']

theorem calcLampamA_spec {c : Cons} (A : AngleSet c) (D : MemData) (ss : Stack) (q : List Int) (lam : Nat → ℚ)
    (hss : ∀ a ∈ ss, a = 666 ∨ a ∈ c.angles) (hq : ∀ a ∈ q, a ∈ c.angles)
    (h : calcLampamA c D ss q = .ok lam) :
    ss ≠ [] ∧
    (c.sym = true → ss.length % 2 ≠ 0 → nth ss (ss.length / 2) ∈ c.angles) ∧
    ∀ k, lam k = lamFactor c ss.length * (csSum c D (designAll c.sym ss q) k + midTerm c D ss k) := by
  unfold calcLampamA at h
  split_ifs at h with h0 h1 h2
  · have hne : ss ≠ [] := fun he => h0 (by rw [he]; rfl)
    obtain ⟨rows, e1, h⟩ := bind_ok.1 h
    obtain ⟨rowsQ, e2, h⟩ := bind_ok.1 h
    simp only [Except.ok.injEq] at h
    refine ⟨hne, (fun hs => by rw [hs] at h1; exact absurd h1 (by simp)), fun k => ?_⟩
    rw [← h]
    dsimp only
    rw [sumRows_mapM A D _ rows ?_ e1, sumRows_mapM A D q rowsQ hq e2]
    · unfold lamFactor midTerm designAll designHalf
      rw [csSum_append]
      simp [h1, Spec.knownPlies]
    · intro a ha
      simp at ha
      rcases hss a ha.1 with h | h
      · exact absurd h ha.2
      · exact h
  · have hs : c.sym = true := by cases hh : c.sym <;> simp_all
    have hne : ss ≠ [] := fun he => h0 (by rw [he]; rfl)
    obtain ⟨rows, e1, h⟩ := bind_ok.1 h
    obtain ⟨rowsQ, e2, h⟩ := bind_ok.1 h
    obtain ⟨mid, e3, h⟩ := bind_ok.1 h
    simp only [Except.ok.injEq] at h
    have hlt : ss.length / 2 < ss.length := by omega
    have hmem : nth ss (ss.length / 2) ∈ ss := by
      unfold nth; rw [List.getD_eq_getElem _ _ hlt]; exact List.getElem_mem _
    have hm : nth ss (ss.length / 2) ∈ c.angles := by
      rcases hss _ hmem with h | h
      · exfalso
        rw [h] at e3
        have hf := mapM_inv _ _ _ e3
        cases hf with
        | cons g _ =>
          rcases (rowOf_iff A _ _).1 g with g | g
          · exact ne666 A (List.mem_of_getElem? g) rfl
          · omega
      · exact h
    refine ⟨hne, fun _ _ => hm, fun k => ?_⟩
    rw [← h]
    dsimp only
    rw [sumRows_mapM A D _ rows ?_ e1, sumRows_mapM A D q rowsQ hq e2,
      sumRows_mapM A D _ mid (by intro a ha; rw [List.mem_singleton] at ha; rw [ha]; exact hm) e3]
    · unfold lamFactor midTerm designAll designHalf
      rw [csSum_append]
      simp [hs, h2, Spec.knownPlies, csSum]
    · intro a ha
      simp at ha
      rcases hss a (List.mem_of_mem_take ha.1) with h | h
      · exact absurd h ha.2
      · exact h
  · have hs : c.sym = true := by cases hh : c.sym <;> simp_all
    have hne : ss ≠ [] := fun he => h0 (by rw [he]; rfl)
    obtain ⟨rows, e1, h⟩ := bind_ok.1 h
    obtain ⟨rowsQ, e2, h⟩ := bind_ok.1 h
    obtain ⟨mid, e3, h⟩ := bind_ok.1 h
    simp only [Except.ok.injEq] at h
    cases e3
    refine ⟨hne, fun _ hh => absurd hh h2, fun k => ?_⟩
    rw [← h]
    dsimp only
    rw [sumRows_mapM A D _ rows ?_ e1, sumRows_mapM A D q rowsQ hq e2]
    · unfold lamFactor midTerm designAll designHalf
      rw [csSum_append]
      simp only [not_not] at h2
      simp [hs, h2, Spec.knownPlies, sumRows]
    · intro a ha
      simp at ha
      rcases hss a (List.mem_of_mem_take ha.1) with h | h
      · exact absurd h ha.2
      · exact h

/-- The sum over all the plies of a laminate is twice the sum over a half (and the middle ply). -/
theorem csSum_plyContent (c : Cons) (D : MemData) (ss : Stack) (q : List Int)
    (hs : c.sym = true → Spec.Symmetric ss)
    (hmid : c.sym = true → ss.length % 2 ≠ 0 → nth ss (ss.length / 2) ≠ 666) (k : Nat) :
    csSum c D (Spec.plyContent c.sym ss q) k / ss.length =
      lamFactor c ss.length * (csSum c D (designAll c.sym ss q) k + midTerm c D ss k) := by
  unfold Spec.plyContent lamFactor midTerm designAll designHalf
  cases hsy : c.sym
  · simp [csSum_append]
    ring
  · have sp := symmetric_split ss (hs hsy)
    simp only [if_true, true_and]
    rw [csSum_append, csSum_append, csSum_append]
    have e1 : csSum c D (Spec.knownPlies ss) k =
        2 * csSum c D (Spec.knownPlies (ss.take (ss.length / 2))) k +
        csSum c D (Spec.knownPlies ((ss.drop (ss.length / 2)).take (ss.length % 2))) k := by
      conv_lhs => rw [sp]
      unfold Spec.knownPlies
      rw [List.filter_append, List.filter_append, csSum_append, csSum_append, List.filter_reverse,
        csSum_perm c D (List.reverse_perm _)]
      ring
    have e2 : csSum c D (Spec.knownPlies ((ss.drop (ss.length / 2)).take (ss.length % 2))) k =
        if ss.length % 2 ≠ 0 then csOf c D (nth ss (ss.length / 2)) k else 0 := by
      rcases Nat.mod_two_eq_zero_or_one ss.length with h2 | h2
      · simp [h2, Spec.knownPlies, csSum]
      · have hlt : ss.length / 2 < ss.length := by omega
        have h3 := hmid hsy (by omega)
        have h5 : (ss.drop (ss.length / 2)).take (ss.length % 2) = [nth ss (ss.length / 2)] := by
          rw [h2]
          unfold nth
          rw [List.getD_eq_getElem _ _ hlt, List.drop_eq_getElem_cons hlt]
          rfl
        rw [h5, if_pos (by omega)]
        unfold Spec.knownPlies
        simp [h3, csSum]
    rw [e1, e2]
    split_ifs <;> ring

theorem memObj_eq (D : MemData) (lam : Nat → ℚ) : memObj D lam = Spec.inPlaneObjective D.coeffs D.target lam := by
  unfold memObj Spec.inPlaneObjective
  rw [Finset.sum_range_succ, Finset.sum_range_succ, Finset.sum_range_succ, Finset.sum_range_succ]
  simp [List.range_succ]
  ring

/-- The initial state satisfies the invariant. -/
theorem memStart_inv {c : Cons} (A : AngleSet c) (attr : DamTolAttr) (D : MemData) (abd : Bool) (mini : Mini10)
    (ss : Stack) (q : List Int) (hn : ss.length ≤ 6666) (hss : ∀ a ∈ ss, a = 666 ∨ a ∈ c.angles)
    (hq : ∀ a ∈ q, a ∈ c.angles) (hsy : c.sym = true → Spec.Symmetric ss)
    (R : Stack → List Int → (Nat → ℚ) → (Nat → ℚ) → Prop)
    (hR : ∀ lam e, calcLampamA c D ss q = .ok lam → (abd = false → calcExcess10 c.sym ss q mini = .ok e) →
      R ss q lam e)
    (hobj : ∀ lam, calcLampamA c D ss q = .ok lam → memObj D lam ≤ 10 ^ 10)
    (st : MemState) (ind : List Nat) (h : memStart c attr D abd mini ss q = .ok (st, ind)) :
    ind = indices1 c attr D.pA ss.length ∧ ∃ lam, calcLampamA c D ss q = .ok lam ∧
    MInv c ind D ss q (midTerm c D ss) R ⟨ss, q, lam, memObj D lam⟩ st := by
  unfold memStart at h
  obtain ⟨lam, h1, h⟩ := bind_ok.1 h
  obtain ⟨e, h2, h⟩ := bind_ok.1 h
  obtain ⟨⟨ind', b⟩, h3, h⟩ := bind_ok.1 h
  simp only [Except.ok.injEq, Prod.mk.injEq] at h
  obtain ⟨rfl, rfl⟩ := h
  obtain ⟨rfl, hb⟩ := calcIndPlies_spec A attr D.pA ss q _ _ hn hss hq h3
  have hR' : R ss q lam e := hR lam e h1 (fun ha => by unfold startExcess at h2; rw [if_neg (by simp [ha])] at h2; exact h2)
  refine ⟨rfl, lam, h1, ⟨hb, ?_, hR', ?_, ⟨[], rfl⟩, rfl, hobj lam h1⟩⟩
  · intro x hx
    rw [List.mem_singleton] at hx
    subst hx
    exact ⟨⟨⟨[], [], PlyChanges.refl hsy, by simp⟩, (calcLampamA_spec A D ss q lam hss hq h1).2.2, rfl⟩, e, hR'⟩
  · simp

/-- `R` is kept by the changes of repair_membrane_1_no_ipo (and its Abdalla variant). -/
def KeepsOne (c : Cons) (abd : Bool) (dist : (Nat → ℚ) → ℚ) (ind : List Nat) (n : Nat)
    (R : Stack → List Int → (Nat → ℚ) → (Nat → ℚ) → Prop) : Prop :=
  ∀ ss q lam e ss' q' lam' e' a1 a2, R ss q lam e → ss.length = n →
      PlyChanges c.sym (fun i => i ∈ ind) ss q ss' q' [a1] [a2] → a1 ∈ c.angles → a2 ∈ c.angles →
      memGuard abd dist guard10One e lam' a1 a2 = some e' → R ss' q' lam' e'

/-- `R` is kept by the changes of repair_membrane_1_ipo (and its Abdalla variant). -/
def KeepsTwo (c : Cons) (abd : Bool) (dist : (Nat → ℚ) → ℚ) (ind : List Nat) (n : Nat)
    (R : Stack → List Int → (Nat → ℚ) → (Nat → ℚ) → Prop) : Prop :=
  (∀ ss q lam e ss' q' lam' e' a1 a2, R ss q lam e → ss.length = n →
      PlyChanges c.sym (fun i => i ∈ ind) ss q ss' q' [a1, partner a1] [a2, partner a2] →
      a1 ∈ c.posAngles → a2 ∈ c.posAngles →
      memGuard abd dist guard10Pair e lam' a1 a2 = some e' → R ss' q' lam' e') ∧
  (∀ ss q lam e ss' q' lam' (a b : Int) (s : Nat), R ss q lam e → ss.length = n →
      PlyChanges c.sym (fun i => i ∈ ind) ss q ss' q' [a] [b] →
      ((a = 0 ∧ b = 90 ∧ s = 0) ∨ (a = 90 ∧ b = 0 ∧ s = 1)) →
      lastOk abd dist e s lam' = true → ∃ e', R ss' q' lam' e')

/-- All the candidates of the refinement satisfy `R`. -/
theorem repairMembrane1_out {c : Cons} (A : AngleSet c) (imported : Bool) (dist : (Nat → ℚ) → ℚ)
    (attr : DamTolAttr) (D : MemData) (mini : Mini10) (fuel : Nat)
    (ss : Stack) (q : List Int) (hn : ss.length ≤ 6666) (hss : ∀ a ∈ ss, a = 666 ∨ a ∈ c.angles)
    (hq : ∀ a ∈ q, a ∈ c.angles) (hsy : c.sym = true → Spec.Symmetric ss)
    (R : Stack → List Int → (Nat → ℚ) → (Nat → ℚ) → Prop)
    (hR : ∀ lam e, calcLampamA c D ss q = .ok lam →
      ((c.rule10 && c.rule10Abdalla) = false → calcExcess10 c.sym ss q mini = .ok e) → R ss q lam e)
    (h1 : c.ipo = false → KeepsOne c (c.rule10 && c.rule10Abdalla) dist (indices1 c attr D.pA ss.length) ss.length R)
    (h2 : c.ipo = true → KeepsTwo c (c.rule10 && c.rule10Abdalla) dist (indices1 c attr D.pA ss.length) ss.length R)
    (hobj : ∀ lam, calcLampamA c D ss q = .ok lam → memObj D lam ≤ 10 ^ 10)
    (st : MemState) (h : repairMembrane1 imported dist c attr D mini fuel ss q = some (.ok st)) :
    ∃ lam, calcLampamA c D ss q = .ok lam ∧
    MOut c (indices1 c attr D.pA ss.length) D ss q (midTerm c D ss) R ⟨ss, q, lam, memObj D lam⟩ st.out := by
  unfold repairMembrane1 at h
  dsimp only at h
  generalize habd : (c.rule10 && c.rule10Abdalla) = abd at *
  split_ifs at h with hi
  · unfold memTwo at h
    cases hs : memStart c attr D abd mini ss q with
    | error e => rw [hs] at h; cases h
    | ok p =>
      obtain ⟨st0, ind⟩ := p
      rw [hs] at h
      dsimp only at h
      split_ifs at h with hc
      · simp at h
      obtain ⟨rfl, lam, hl, hI⟩ := memStart_inv A attr D abd mini ss q hn hss hq hsy R hR hobj st0 ind hs
      cases ho : lampamOptions1 c D ss.length with
      | error e => rw [ho] at h; cases h
      | ok lo =>
        rw [ho] at h
        dsimp only at h
        generalize hm : memLoop D lo _ fuel st0 _ = r at h
        cases r with
        | none => cases h
        | some r =>
          cases r with
          | error e => cases h
          | ok st1 =>
            dsimp only at h
            have hI1 := memLoopTwo_inv A abd dist D _ _ ss q (midTerm c D ss) lo ho
              (indices1_ok c attr D.pA ss.length) R (h2 hi).1 _ fuel st0 st1 _ hI (optInv_init D lo st0.lam) hm
            exact ⟨lam, hl, memLast_spec A abd dist D _ _ ss q (midTerm c D ss) lo ho
              (indices1_ok c attr D.pA ss.length) R (h2 hi).2 _ st1 st hI1 (Option.some.inj h)⟩
  · unfold memOne at h
    split_ifs at h with hc
    · simp at h
    cases hs : memStart c attr D abd mini ss q with
    | error e => rw [hs] at h; cases h
    | ok p =>
      obtain ⟨st0, ind⟩ := p
      rw [hs] at h
      dsimp only at h
      obtain ⟨rfl, lam, hl, hI⟩ := memStart_inv A attr D abd mini ss q hn hss hq hsy R hR hobj st0 ind hs
      have hi' : c.ipo = false := by cases hh : c.ipo <;> simp_all
      have hI1 := memLoopOne_inv A abd dist D _ _ ss q (midTerm c D ss)
              (indices1_ok c attr D.pA ss.length) R (h1 hi') _ fuel st0 st _ hI (optInv_init D _ st0.lam) h
      exact ⟨lam, hl, hI1.out⟩

end Bella
