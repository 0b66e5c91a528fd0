import Verif.Proofs.MembraneBuckets
/-
The steps of the membrane refinement.
-/
namespace Bella

/-- One row of `cos_sin` as a function of the ply angle. -/
def csOf (c : Cons) (D : MemData) (a : Int) (k : Nat) : ℚ := D.cosSin (c.angles.idxOf a) k

/-- Sum over a list of plies of the entries of their rows. -/
def csSum (c : Cons) (D : MemData) (l : List Int) (k : Nat) : ℚ := (l.map (fun a => csOf c D a k)).sum

theorem csSum_append (c : Cons) (D : MemData) (l l' : List Int) (k : Nat) :
    csSum c D (l ++ l') k = csSum c D l k + csSum c D l' k := by
  simp [csSum]

theorem csSum_perm (c : Cons) (D : MemData) {l l' : List Int} (h : l.Perm l') (k : Nat) :
    csSum c D l k = csSum c D l' k := by
  unfold csSum
  exact (h.map _).sum_eq

/-- A change of plies of orientations `F` into `T` made by the refinement. -/
structure MemMove (c : Cons) (ind : List Nat) (D : MemData) (n : Nat) (st st' : MemState) (F T : List Int) :
    Prop where
  ch : PlyChanges c.sym (fun i => i ∈ ind) st.ss st.queue st'.ss st'.queue F T
  inF : ∀ x ∈ F, x ∈ c.angles
  inT : ∀ x ∈ T, x ∈ c.angles
  binv : BInv c ind st'.ss st'.queue st'.idx
  lam : ∀ k, st'.lam k = st.lam k + lamFactor c n * (csSum c D T k - csSum c D F k)
  out : st'.out = ⟨st'.ss, st'.queue, st'.lam, st'.obj⟩ :: st.out

theorem count_upd_append (b : Buckets) (r p j p' : Nat) :
    ((b.upd r (b r ++ [p])) j).count p' = (b j).count p' + (if j = r ∧ p' = p then 1 else 0) := by
  rw [upd_apply]
  by_cases h : j = r
  · subst h
    simp only [if_true, true_and, List.count_append, List.count_singleton, beq_iff_eq, eq_comm (a := p)]
  · simp [h]

theorem count_upd_tail (b : Buckets) (r p : Nat) (t : List Nat) (hb : b r = p :: t) (j p' : Nat) :
    ((b.upd r t) j).count p' + (if j = r ∧ p' = p then 1 else 0) = (b j).count p' := by
  rw [upd_apply]
  by_cases h : j = r
  · subst h
    simp only [if_true, true_and, hb, List.count_cons, beq_iff_eq, eq_comm (a := p)]
  · simp [h]

theorem nth_angles {c : Cons} {r : Nat} (h : r < c.angles.length) : c.angles[r]? = some (nth c.angles r) := by
  rw [List.getElem?_eq_getElem h]
  unfold nth
  rw [List.getD_eq_getElem _ _ h]

theorem optRow3 (c : Cons) (A : AngleSet c) (D : MemData) (n r : Nat) (hr : r < c.angles.length) (k : Nat) :
    memOptRow (lampamOptions3 c D n) r k = lamFactor c n * csOf c D (nth c.angles r) k := by
  have hr' : r < c.nAngles := by rw [A.num]; exact hr
  unfold memOptRow lampamOptions3
  rw [List.getD_eq_getElem?_getD, List.getElem?_map, List.getElem?_range hr']
  simp only [Option.map_some, Option.getD_some]
  unfold csOf
  rw [idxOf_row A (nth_angles hr)]

theorem options3_length (c : Cons) (A : AngleSet c) (D : MemData) (n : Nat) :
    (lampamOptions3 c D n).length = c.angles.length := by
  unfold lampamOptions3
  simp [A.num]

theorem ne666 {c : Cons} (A : AngleSet c) {a : Int} (h : a ∈ c.angles) : a ≠ 666 := by
  have := A.range a h
  omega

/-- repair_membrane_1_no_ipo: one ply is changed. -/
theorem memStepOne_spec {c : Cons} (A : AngleSet c) (abd : Bool) (dist : (Nat → ℚ) → ℚ) (D : MemData)
    (m n : Nat) (ind : List Nat) (st st' : MemState) (opts : List ℚ)
    (hn : st.ss.length = n)
    (hind : IndOk c.sym m n ind) (hsy : c.sym = true → Spec.Symmetric st.ss)
    (hb : BInv c ind st.ss st.queue st.idx)
    (ht : argMin opts < c.angles.length * c.angles.length)
    (h : memStepOne abd dist c ind (lampamOptions3 c D n) st opts = .ok (.move st')) :
    ∃ a1 a2, MemMove c ind D n st st' [a1] [a2] ∧ st'.obj = opts.getD (argMin opts) 0 ∧
      st'.lam = lamAfter (lampamOptions3 c D n) st.lam (argMin opts) ∧
      memGuard abd dist guard10One st.exc st'.lam a1 a2 = some st'.exc := by
  subst hn
  unfold memStepOne at h
  rw [options3_length c A] at h
  dsimp only at h
  have hL : 0 < c.angles.length := List.length_pos_iff.2 A.ne
  have hr1 : argMin opts / c.angles.length < c.angles.length := Nat.div_lt_of_lt_mul ht
  have hr2 : argMin opts % c.angles.length < c.angles.length := Nat.mod_lt _ hL
  have hlamk : ∀ k, lamAfter (lampamOptions3 c D st.ss.length) st.lam (argMin opts) k =
      st.lam k + lamFactor c st.ss.length * (csOf c D (nth c.angles (argMin opts % c.angles.length)) k
        - csOf c D (nth c.angles (argMin opts / c.angles.length)) k) := by
    intro k
    unfold lamAfter
    rw [options3_length c A, optRow3 c A _ _ _ hr1, optRow3 c A _ _ _ hr2]
    ring
  generalize argMin opts / c.angles.length = r1 at *
  generalize argMin opts % c.angles.length = r2 at *
  have e1 := nth_angles hr1
  have e2 := nth_angles hr2
  generalize nth c.angles r1 = a1 at *
  generalize nth c.angles r2 = a2 at *
  split_ifs at h with h0
  · simp at h
  cases hg : memGuard abd dist guard10One st.exc (lamAfter (lampamOptions3 c D st.ss.length) st.lam (argMin opts)) a1 a2 with
  | none => rw [hg] at h; cases h
  | some e =>
    rw [hg] at h
    dsimp only at h
    obtain ⟨⟨p, b1⟩, hpb, h⟩ := bind_ok.1 h
    obtain ⟨⟨ss', q'⟩, hch, h⟩ := bind_ok.1 h
    obtain ⟨b2, hadd, h⟩ := bind_ok.1 h
    dsimp only at h hch hadd
    simp only [Except.ok.injEq, MemStep.move.injEq] at h
    subst h
    obtain ⟨t, ht1, rfl⟩ := popBucket_spec _ _ _ _ hpb
    have hpos : 0 < (st.idx r1).count p := by rw [ht1]; simp
    have hmem := binv_mem hb e1 hpos
    have m1 := List.mem_of_getElem? e1
    have m2 := List.mem_of_getElem? e2
    have hmv := bmove_perm _ _ b2 _ _ _ (bmove_raw st.idx r1 r2 p t ht1) (addOne_perm _ _ _ _ _ _ hind.nodup hadd)
    refine ⟨a1, a2, ⟨?_, ?_, ?_, ?_, ?_, rfl⟩, rfl, rfl, hg⟩
    · exact changePly_spec c.sym ind m _ _ _ _ p a1 a2 hind hsy (ne666 A m1) (ne666 A m2)
        (by rcases hmem with h | h
            · exact Or.inl h.1
            · exact Or.inr ⟨h.1, h.2.2⟩) hch
    · intro x hx; rw [List.mem_singleton] at hx; rw [hx]; exact m1
    · intro x hx; rw [List.mem_singleton] at hx; rw [hx]; exact m2
    · exact binv_move A hind hb e1 e2 hpos hch hmv
    · intro k
      dsimp only
      rw [hlamk k]
      simp [csSum]

/-- One couple of plies, or one ply: the row of the options of repair_membrane_1_ipo. -/
theorem options1_spec {c : Cons} (A : AngleSet c) (D : MemData) (n : Nat) (lo : List (Nat → ℚ))
    (h : lampamOptions1 c D n = .ok lo) :
    lo.length = c.posAngles.length ∧
    ∀ i, i < c.posAngles.length → ∀ k, memOptRow lo i k =
      lamFactor c n * csSum c D [nth c.posAngles i, partner (nth c.posAngles i)] k := by
  unfold lampamOptions1 at h
  have hf := mapM_inv _ _ _ h
  refine ⟨hf.length_eq.symm, ?_⟩
  intro i hi k
  have hl : i < lo.length := by rw [← hf.length_eq]; exact hi
  have hg := List.Forall₂.get hf hi hl
  simp only [List.get_eq_getElem] at hg
  have hm : c.posAngles[i] ∈ c.posAngles := List.getElem_mem hi
  have hp := posAngles_mem A hm
  have en : nth c.posAngles i = c.posAngles[i] := by
    unfold nth; rw [List.getD_eq_getElem _ _ hi]
  rw [en]
  obtain ⟨r, hr, hg⟩ := bind_ok.1 hg
  obtain ⟨r', hr', hg⟩ := bind_ok.1 hg
  simp only [Except.ok.injEq] at hg
  have e1 := rowOf_pos A hp.2.1 hr
  have e2 := rowOf_neg_partner A hm hr'
  unfold memOptRow
  rw [List.getD_eq_getElem _ _ hl, ← hg]
  unfold csSum csOf
  simp [idxOf_row A e1, idxOf_row A e2]

/-- repair_membrane_1_ipo: a couple of plies is changed. -/
theorem memStepTwo_spec {c : Cons} (A : AngleSet c) (abd : Bool) (dist : (Nat → ℚ) → ℚ) (D : MemData)
    (m n : Nat) (ind : List Nat) (lo : List (Nat → ℚ)) (hlo : lampamOptions1 c D n = .ok lo)
    (st st' : MemState) (opts : List ℚ) (hn : st.ss.length = n)
    (hind : IndOk c.sym m n ind) (hsy : c.sym = true → Spec.Symmetric st.ss)
    (hb : BInv c ind st.ss st.queue st.idx)
    (ht : argMin opts < lo.length * lo.length)
    (h : memStepTwo abd dist c ind lo st opts = .ok (.move st')) :
    ∃ a1 a2, a1 ∈ c.posAngles ∧ a2 ∈ c.posAngles ∧
      MemMove c ind D n st st' [a1, partner a1] [a2, partner a2] ∧ st'.obj = opts.getD (argMin opts) 0 ∧
      st'.lam = lamAfter lo st.lam (argMin opts) ∧
      memGuard abd dist guard10Pair st.exc st'.lam a1 a2 = some st'.exc := by
  subst hn
  obtain ⟨hlen, hopt⟩ := options1_spec A D _ lo hlo
  unfold memStepTwo at h
  dsimp only at h
  have hL : 0 < lo.length := by
    by_contra hc
    have : lo.length = 0 := by omega
    rw [this] at ht
    omega
  have hr1 : argMin opts / lo.length < c.posAngles.length := by rw [← hlen]; exact Nat.div_lt_of_lt_mul ht
  have hr2 : argMin opts % lo.length < c.posAngles.length := by rw [← hlen]; exact Nat.mod_lt _ hL
  have hlamk : ∀ k, lamAfter lo st.lam (argMin opts) k =
      st.lam k + lamFactor c st.ss.length * (csSum c D [nth c.posAngles (argMin opts % lo.length),
          partner (nth c.posAngles (argMin opts % lo.length))] k
        - csSum c D [nth c.posAngles (argMin opts / lo.length),
          partner (nth c.posAngles (argMin opts / lo.length))] k) := by
    intro k
    unfold lamAfter
    rw [hopt _ hr1, hopt _ hr2]
    ring
  have m1 : nth c.posAngles (argMin opts / lo.length) ∈ c.posAngles := by
    unfold nth; rw [List.getD_eq_getElem _ _ hr1]; exact List.getElem_mem _
  have m2 : nth c.posAngles (argMin opts % lo.length) ∈ c.posAngles := by
    unfold nth; rw [List.getD_eq_getElem _ _ hr2]; exact List.getElem_mem _
  generalize nth c.posAngles (argMin opts / lo.length) = a1 at *
  generalize nth c.posAngles (argMin opts % lo.length) = a2 at *
  obtain ⟨r1, g1, h⟩ := bind_ok.1 h
  obtain ⟨r1m, g1m, h⟩ := bind_ok.1 h
  obtain ⟨r2, g2, h⟩ := bind_ok.1 h
  obtain ⟨r2m, g2m, h⟩ := bind_ok.1 h
  have p1 := posAngles_mem A m1
  have p2 := posAngles_mem A m2
  have e1 := rowOf_pos A p1.2.1 g1
  have e2 := rowOf_pos A p2.2.1 g2
  have e1m := rowOf_neg_partner A m1 g1m
  have e2m := rowOf_neg_partner A m2 g2m
  split_ifs at h with h0
  · simp at h
  cases hg : memGuard abd dist guard10Pair st.exc (lamAfter lo st.lam (argMin opts)) a1 a2 with
  | none =>
    rw [hg] at h
    obtain ⟨f, _, h⟩ := bind_ok.1 h
    cases h
  | some e =>
    rw [hg] at h
    dsimp only at h
    obtain ⟨⟨q1, b1⟩, hpb1, h⟩ := bind_ok.1 h
    obtain ⟨⟨q2, b2⟩, hpb2, h⟩ := bind_ok.1 h
    obtain ⟨⟨ss1, qu1⟩, hch1, h⟩ := bind_ok.1 h
    obtain ⟨⟨ss2, qu2⟩, hch2, h⟩ := bind_ok.1 h
    obtain ⟨b3, hadd, h⟩ := bind_ok.1 h
    dsimp only at h hch1 hch2 hadd hpb2
    simp only [Except.ok.injEq, MemStep.move.injEq] at h
    subst h
    obtain ⟨t1, ht1, rfl⟩ := popBucket_spec _ _ _ _ hpb1
    obtain ⟨t2, ht2, rfl⟩ := popBucket_spec _ _ _ _ hpb2
    have hpos1 : 0 < (st.idx r1).count q1 := by rw [ht1]; simp
    have hmem1 := binv_mem hb e1 hpos1
    have raw1 := bmove_raw st.idx r1 r2 q1 t1 ht1
    have bi1 := binv_move A hind hb e1 e2 hpos1 hch1 raw1
    have pc1 := changePly_spec c.sym ind m _ _ _ _ q1 a1 a2 hind hsy (ne666 A p1.1) (ne666 A p2.1)
        (by rcases hmem1 with h | h
            · exact Or.inl h.1
            · exact Or.inr ⟨h.1, h.2.2⟩) hch1
    -- the second ply
    have hsecond : ∃ t2', (((st.idx.upd r1 t1).upd r2 ((st.idx.upd r1 t1) r2 ++ [q1])) r1m) = q2 :: t2' := by
      rw [upd_apply]
      split_ifs with hr
      · subst hr
        rw [ht2]
        exact ⟨t2 ++ [q1], rfl⟩
      · exact ⟨t2, ht2⟩
    obtain ⟨t2', ht2'⟩ := hsecond
    have hpos2 : 0 < (((st.idx.upd r1 t1).upd r2 ((st.idx.upd r1 t1) r2 ++ [q1])) r1m).count q2 := by
      rw [ht2']; simp
    have hind1 : IndOk c.sym m ss1.length ind := by rw [pc1.len]; exact hind
    have hmem2 := binv_mem bi1 e1m hpos2
    have pc2 := changePly_spec c.sym ind m _ _ _ _ q2 (partner a1) (partner a2) hind1 pc1.symm
        (ne666 A p1.2.2) (ne666 A p2.2.2)
        (by rcases hmem2 with h | h
            · exact Or.inl h.1
            · exact Or.inr ⟨h.1, h.2.2⟩) hch2
    have hperm := addTwo_perm _ _ _ _ _ _ _ _ hind.nodup hadd
    -- the moves of indices
    have hmv2 : BMove ((st.idx.upd r1 t1).upd r2 ((st.idx.upd r1 t1) r2 ++ [q1])) b3 r1m r2m q2 := by
      refine bmove_perm _ _ b3 _ _ _ ?_ hperm
      intro r p'
      have f1 := count_upd_append ((st.idx.upd r1 t1).upd r1m t2) r2 q1 r p'
      have f2 := count_upd_append ((((st.idx.upd r1 t1).upd r1m t2)).upd r2
        ((((st.idx.upd r1 t1).upd r1m t2)) r2 ++ [q1])) r2m q2 r p'
      have f3 := count_upd_tail (st.idx.upd r1 t1) r1m q2 t2 ht2 r p'
      have f4 := count_upd_append (st.idx.upd r1 t1) r2 q1 r p'
      omega
    refine ⟨a1, a2, m1, m2, ⟨?_, ?_, ?_, ?_, ?_, rfl⟩, rfl, rfl, hg⟩
    · have := pc1.trans pc2
      simpa using this
    · intro x hx
      simp only [List.mem_cons, List.not_mem_nil, or_false] at hx
      rcases hx with rfl | rfl
      · exact p1.1
      · exact p1.2.2
    · intro x hx
      simp only [List.mem_cons, List.not_mem_nil, or_false] at hx
      rcases hx with rfl | rfl
      · exact p2.1
      · exact p2.2.2
    · exact binv_move A hind1 bi1 e1m e2m hpos2 hch2 hmv2
    · intro k
      exact hlamk k

end Bella
