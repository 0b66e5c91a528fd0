import Verif.Props.RepairReference
/-
Properties C59 and C60: the disorientation rule under damage tolerance with one protected ply on each face.  The tests at the end
of the repairs do not look at it (C02); it is the steps themselves that keep it.
-/
namespace Bella

/-- A laminate whose outer plies differ from the next ones meets the contiguity rule if it does without them. -/
theorem contigOK_ends {n : Nat} (hn : 1 ≤ n) {s : Stack} (hl : 2 ≤ s.length) (h : Spec.ContigOK n ((s.drop 1).take (s.length - 2)))
    (h1 : nth s 0 ≠ nth s 1) (h2 : nth s (s.length - 1) ≠ nth s (s.length - 2)) : Spec.ContigOK n s := by
  rintro a ⟨p, t, e⟩
  have hlen : p.length + (n + 1) + t.length = s.length := by rw [← e]; simp only [List.length_append, List.length_replicate]
  have hget : ∀ i, i < n + 1 → nth s (p.length + i) = a := by
    intro i hi
    unfold nth
    rw [← e, List.getD_eq_getElem?_getD, List.append_assoc, List.getElem?_append_right (by omega),
      List.getElem?_append_left (by simp; omega)]
    simp [hi]
  rcases p with _ | ⟨x, p⟩
  · have a1 := hget 0 (by omega)
    have a2 := hget 1 (by omega)
    simp only [List.length_nil, Nat.zero_add] at a1 a2
    exact h1 (a1.trans a2.symm)
  · rcases List.eq_nil_or_concat t with rfl | ⟨t, y, rfl⟩
    · have a1 := hget n (by omega)
      have a2 := hget (n - 1) (by omega)
      simp only [List.length_nil, List.length_cons] at hlen a1 a2
      rw [(by omega : s.length - 1 = p.length + 1 + n), (by omega : s.length - 2 = p.length + 1 + (n - 1)), a1, a2] at h2
      exact h2 rfl
    · apply h a
      refine ⟨p, t, ?_⟩
      rw [← e]
      simp only [List.concat_eq_append, List.cons_append, List.drop_succ_cons, List.drop_zero, List.length_cons,
        List.length_append, List.length_replicate, List.length_nil]
      rw [← List.append_assoc, List.take_left' (by simp; omega)]

/-- Steps 3 and 4: the rules are kept by the out-of-plane refinement, the outer ply of each face excepted when damage tolerance
protects two. -/
theorem protected_flexural {a : ConsArgs} {P : RepairSetup} {cs : Int → Nat → ℚ} {ss : Stack}
    (H : RepairCase a P cs ss) (r : Int) (hattr : P.attr = .rule r)
    (hdiff : P.c.contig = true → P.c.damTol = true → P.attr.twoPlies = true →
      nth ss 0 ≠ nth ss 1 ∧ nth ss (ss.length - 1) ≠ nth ss (ss.length - 2))
    (hdelta : 0 ≤ P.c.deltaAngle) (hD1 : 1 ≤ P.nD1) (hev : P.c.sym = true → ss.length % 2 = 0)
    (hcon : P.c.contig = true → P.c.nContig ≤ P.nD1)
    (hsize : P.c.sym = false → ss.length - 2 * (nKeptOut P.c P.attr - 1) ≠
      4 + min P.nD1 (ss.length - 2 * nKeptIn P.c P.attr - 1) + P.c.nContig)
    (hsize' : P.c.sym = true → ss.length ≤ P.c.nContig ∨ P.c.nContig + 2 * nKeptOut P.c P.attr ≤ ss.length)
    {s' : Stack} {inward multipanel : Bool} {ind : Nat} (hst : repairSteps P ss = some (.ok (s', inward, true, ind))) :
    ∃ res, repairFlexural P.c P.attr P.flex P.calcLampamD P.nD2 P.nD3 multipanel P.flexSwitch P.flexZero s' = .ok res ∧
    (P.c.diso = true → Spec.PairsWithin P.c.deltaAngle res (nKeptOut P.c P.attr - 1)
      (res.length - 1 - (nKeptOut P.c P.attr - 1))) ∧
    (P.c.contig = true → Spec.ContigOK P.c.nContig res) := by
  obtain ⟨g1, g2⟩ := repairSteps_rules H r hattr hdelta hD1 hsize hsize' hst
  obtain ⟨s, q, S, hrep⟩ := repairSteps_spec H hst
  obtain ⟨r1, r2, r3, _, r4, r5⟩ := reorders_content H.contig S.ok S.symm hrep
  have hl : s'.length = ss.length := by rw [r1, S.len]
  have A := angleSet_of a P.c H.cons
  have hin : InRange s' := by
    intro x hx
    have := A.range x (S.content x (r3.mem_iff.1 hx))
    omega
  have hlong := H.long.1
  have hne : s' ≠ [] := by
    intro e
    rw [e, List.length_nil] at hl
    omega
  have hk1 : nKeptOut P.c P.attr = 1 ∨ nKeptOut P.c P.attr = 2 := by
    rw [nKeptOut_eq]
    split_ifs <;> simp
  have g2' : P.c.contig = true → Spec.ContigOK P.c.nContig s' := by
    intro h
    have g := g2 h (hcon h)
    rcases hk1 with hk | hk
    · rw [hk] at g
      simpa using g
    · rw [hk] at g
      have hkk := hk
      rw [nKeptOut_eq] at hkk
      have hdt : P.c.damTol = true ∧ P.attr.twoPlies = true := by
        by_contra hc
        rw [if_neg hc] at hkk
        cases hkk
      obtain ⟨d1, d2⟩ := hdiff h hdt.1 hdt.2
      have hki : nKeptIn P.c P.attr = 2 := by unfold nKeptIn; rw [if_pos hdt.1, hk]
      rw [hki] at r4 r5
      have e1 : ∀ i, i < 2 → nth s' i = nth ss i := by
        intro i hi
        have := congrArg (fun l => l[i]?) r4
        simp only [List.getElem?_take, if_pos hi] at this
        rw [nth_some (by omega), nth_some (by rw [S.len]; omega), Option.some.injEq] at this
        rw [this]
        exact (S.kept hdt.1 i (by omega)).1
      have e2 : ∀ i, i < 2 → nth s' (ss.length - 1 - i) = nth ss (ss.length - 1 - i) := by
        intro i hi
        have := congrArg (fun l => l[1 - i]?) r5
        simp only [List.getElem?_drop] at this
        rw [S.len, (by omega : ss.length - 2 + (1 - i) = ss.length - 1 - i), nth_some (by omega),
          nth_some (by rw [S.len]; omega), Option.some.injEq] at this
        rw [this]
        exact (S.kept hdt.1 i (by omega)).2
      obtain ⟨n2, _⟩ := H.contig h
      refine contigOK_ends (by omega) (by omega) (by simpa using g) ?_ ?_
      · rw [e1 0 (by omega), e1 1 (by omega)]
        exact d1
      · rw [hl]
        have b1 := e2 0 (by omega)
        have b2 := e2 1 (by omega)
        rw [(by omega : ss.length - 1 - 1 = ss.length - 2)] at b2
        rw [Nat.sub_zero] at b1
        rw [b1, b2]
        exact d2
  obtain ⟨res', e1, e2, _, e4, e5⟩ := C56_flexural_rules H.contig H.nD2 H.flexBound hne r2 (fun h => by rw [hl]; exact hev h) hin
    (lo := nKeptOut P.c P.attr - 1) (by omega) (by
      unfold keptPlies
      rw [nKeptOut_eq]
      split_ifs <;> simp_all) g1 g2' (attr := P.attr) (lampamOf := P.calcLampamD)
    (nD3 := P.nD3) (multipanel := multipanel) (switch := P.flexSwitch) (coeffsZero := P.flexZero)
  exact ⟨res', e1, e4, e5⟩

/-- Steps 3 and 4 when at most one ply of each face is protected: all the pairs of plies are right. -/
theorem onePly_flexural {a : ConsArgs} {P : RepairSetup} {cs : Int → Nat → ℚ} {ss : Stack}
    (H : RepairCase a P cs ss) (r : Int) (hattr : P.attr = .rule r) (hone : P.c.damTol = true → P.attr.twoPlies = false)
    (hdelta : 0 ≤ P.c.deltaAngle) (hD1 : 1 ≤ P.nD1) (hev : P.c.sym = true → ss.length % 2 = 0)
    (hcon : P.c.contig = true → P.c.nContig ≤ P.nD1)
    (hsize : P.c.sym = false → ss.length ≠ 4 + min P.nD1 (ss.length - 2 * (if P.c.damTol then 1 else 0) - 1) + P.c.nContig)
    (hsize' : P.c.sym = true → ss.length ≤ P.c.nContig ∨ P.c.nContig + 2 ≤ ss.length)
    {s' : Stack} {inward multipanel : Bool} {ind : Nat} (hst : repairSteps P ss = some (.ok (s', inward, true, ind))) :
    ∃ res, repairFlexural P.c P.attr P.flex P.calcLampamD P.nD2 P.nD3 multipanel P.flexSwitch P.flexZero s' = .ok res ∧
    (P.c.diso = true → Spec.DisoOK P.c.deltaAngle res) ∧ (P.c.contig = true → Spec.ContigOK P.c.nContig res) := by
  have hk : nKeptOut P.c P.attr = 1 := by
    rw [nKeptOut_eq, if_neg]
    rintro ⟨h1, h2⟩
    rw [hone h1] at h2
    cases h2
  have hki : nKeptIn P.c P.attr = if P.c.damTol then 1 else 0 := by
    unfold nKeptIn
    rw [hk]
  obtain ⟨res, e1, e4, e5⟩ := protected_flexural H r hattr (fun _ h1 h2 => by rw [hone h1] at h2; cases h2) hdelta hD1 hev hcon
    (fun h => by rw [hk, hki]; simpa using hsize h) (fun h => by rw [hk]; simpa using hsize' h) hst (multipanel := multipanel)
  refine ⟨res, e1, fun hd i x y hx hy => ?_, e5⟩
  rw [hk] at e4
  refine e4 hd i x y (Nat.zero_le _) ?_ hx hy
  have := (List.getElem?_eq_some_iff.1 hy).1
  omega

/-- What is returned by step 4 meets the rules. -/
theorem onePly_rules {a : ConsArgs} {P : RepairSetup} {cs : Int → Nat → ℚ} {ss : Stack}
    (H : RepairCase a P cs ss) (r : Int) (hattr : P.attr = .rule r) (hone : P.c.damTol = true → P.attr.twoPlies = false)
    (hdelta : 0 ≤ P.c.deltaAngle) (hD1 : 1 ≤ P.nD1) (hev : P.c.sym = true → ss.length % 2 = 0)
    (hcon : P.c.contig = true → P.c.nContig ≤ P.nD1)
    (hsize : P.c.sym = false → ss.length ≠ 4 + min P.nD1 (ss.length - 2 * (if P.c.damTol then 1 else 0) - 1) + P.c.nContig)
    (hsize' : P.c.sym = true → ss.length ≤ P.c.nContig ∨ P.c.nContig + 2 ≤ ss.length)
    {s' res : Stack} {inward multipanel : Bool} {ind : Nat} (hst : repairSteps P ss = some (.ok (s', inward, true, ind)))
    (hf : repairFlexural P.c P.attr P.flex P.calcLampamD P.nD2 P.nD3 multipanel P.flexSwitch P.flexZero s' = .ok res) :
    (P.c.diso = true → Spec.DisoOK P.c.deltaAngle res) ∧ (P.c.contig = true → Spec.ContigOK P.c.nContig res) := by
  obtain ⟨res', e1, e4, e5⟩ := onePly_flexural H r hattr hone hdelta hD1 hev hcon hsize hsize' hst (multipanel := multipanel)
  rw [hf] at e1
  obtain rfl := Except.ok.inj e1
  exact ⟨e4, e5⟩

/-- C59: when damage tolerance protects at most one ply of each face, a laminate reported as repaired meets the disorientation
and contiguity rules, whether or not the out-of-plane refinement is on (even number of plies for symmetric laminates, limit of
contiguity not above the number of plies permuted, some sizes excluded as in C28). -/
theorem C59_rules_one_ply (a : ConsArgs) (P : RepairSetup) (cs : Int → Nat → ℚ) (ss : Stack)
    (H : RepairCase a P cs ss) (r : Int) (hattr : P.attr = .rule r) (hone : P.c.damTol = true → r ≠ 2 ∧ r ≠ 3)
    (hdelta : 0 ≤ P.c.deltaAngle) (hD1 : 1 ≤ P.nD1) (hev : P.c.sym = true → ss.length % 2 = 0)
    (hcon : P.c.contig = true → P.c.nContig ≤ P.nD1)
    (hsize : P.c.sym = false → ss.length ≠ 4 + min P.nD1 (ss.length - 2 * (if P.c.damTol then 1 else 0) - 1) + P.c.nContig)
    (hsize' : P.c.sym = true → ss.length ≤ P.c.nContig ∨ P.c.nContig + 2 ≤ ss.length)
    (obj : Option ℚ) (res : Stack) (o : Option ℚ) (h : repairSs P obj ss = some (.ok (res, true, o))) :
    (P.c.diso = true → Spec.DisoOK P.c.deltaAngle res) ∧ (P.c.contig = true → Spec.ContigOK P.c.nContig res) := by
  obtain ⟨_, _, s', inward, ind, hst, hf⟩ := repairSs_ok h
  refine onePly_rules H r hattr (fun hd => ?_) hdelta hD1 hev hcon hsize hsize' hst hf
  obtain ⟨h1, h2⟩ := hone hd
  rw [hattr]
  simp [DamTolAttr.twoPlies, h1, h2]

/-- C60: when damage tolerance protects at most one ply of each face, the reference laminate of a strip repaired with success
meets the disorientation rule everywhere. -/
theorem C60_disorientation_one_ply (a : ConsArgs) (P : RepairSetup) (cs : Int → Nat → ℚ) (ipoOk : Stack → Bool) (indRef : Nat)
    (reducedSs : List Stack) (pdl : Table) (guide ssRef rowRef : Stack)
    (C : StripCase pdl reducedSs guide indRef ssRef rowRef) (H : RepairCase a P cs ssRef)
    (hm1 : (-1 : Int) ∉ P.c.angles) (r : Int) (hattr : P.attr = .rule r) (hone : P.c.damTol = true → r ≠ 2 ∧ r ≠ 3)
    (hdelta : 0 ≤ P.c.deltaAngle) (hD1 : 1 ≤ P.nD1) (hev : P.c.sym = true → ssRef.length % 2 = 0)
    (hcon : P.c.contig = true → P.c.nContig ≤ P.nD1)
    (hsize : P.c.sym = false → ssRef.length ≠
      4 + min P.nD1 (ssRef.length - 2 * (if P.c.damTol then 1 else 0) - 1) + P.c.nContig)
    (hsize' : P.c.sym = true → ssRef.length ≤ P.c.nContig ∨ P.c.nContig + 2 ≤ ssRef.length) (sst : Table) (ss : List Stack)
    (h : repairReferencePanel P ipoOk indRef reducedSs pdl guide.length = some (.ok (true, sst, ss))) :
    ∃ ref, ss[indRef]? = some ref ∧ (P.c.diso = true → Spec.DisoOK P.c.deltaAngle ref) := by
  unfold repairReferencePanel at h
  rw [C.ref] at h
  dsimp only at h
  split at h
  · cases h
  · cases h
  · rename_i s' inward outward ind hst
    split_ifs at h with ho
    · rw [ho] at hst
      have h := Option.some.inj h
      obtain ⟨s, q, S, hrep⟩ := repairSteps_spec H hst
      obtain ⟨r1, r2, r3, _, _, _⟩ := reorders_content H.contig S.ok S.symm hrep
      have hs : (-1 : Int) ∉ s' := fun hm => hm1 (S.content _ (r3.mem_iff.1 hm))
      obtain ⟨_, _, s2, rr, k1, _, k3, _⟩ := refFinish_spec C hs (by rw [r1, S.len]) (fun s2 h2 =>
        (C56_flexural_reorders H.contig H.nD2 H.flexBound r2 h2).1) h
      refine ⟨s2, k3, (onePly_rules H r hattr (fun hd => ?_) hdelta hD1 hev hcon hsize hsize' hst k1).1⟩
      obtain ⟨h1, h2⟩ := hone hd
      rw [hattr]
      simp [DamTolAttr.twoPlies, h1, h2]
    · exfalso
      have h := Option.some.inj h
      unfold refFail at h
      obtain ⟨_, _, h⟩ := bind_ok.1 h
      cases h

set_option synthInstance.maxHeartbeats 200000 in
set_option synthInstance.maxSize 1000 in
/-- A damage tolerant laminate repaired with out-of-plane refinement under the one-ply rule; all the hypotheses are met. -/
example : ∃ c, mkConstraints (ssArgs true) = .ok c ∧ c.damTol = true ∧ c.damTolAttr = .rule 1 ∧ c.diso = true ∧ c.nContig = 5 ∧
    RepairCase (ssArgs true) (ssSetup c false true) trig4 [45, 0, 45, 0, 0, 0, 45, 0, 0, 45, 0, 0, 0, 45, 0, 45] ∧
    repairSs (ssSetup c false true) none [45, 0, 45, 0, 0, 0, 45, 0, 0, 45, 0, 0, 0, 45, 0, 45] = some (.ok
      ([45, 0, 0, 0, -45, -45, 90, 45, 45, 90, -45, -45, 0, 0, 0, 45], true, none)) := by
  obtain ⟨c, hc, ht⟩ := ok_of_test (mkConstraints (ssArgs true)) (fun (c : Cons) => decide (ContigCons c ∧
    c.angles = [-45, 0, 45, 90] ∧ c.damTol = true ∧ c.damTolAttr = .rule 1 ∧ c.diso = true ∧ c.nContig = 5 ∧
    ((⌈(calcMini10 c 16).m0⌉ + ⌈(calcMini10 c 16).m90⌉ +
      max ((calcMini10 c 16).m45 + (calcMini10 c 16).m135) (calcMini10 c 16).m45_135 +
      (if c.sym then 2 else 4) * (if c.damTol = true ∧ c.damTolAttr.twoPlies = true then 2 else 1) : Int) ≤
      Spec.designPlies c.sym 16) ∧
    repairSs (ssSetup c false true) none [45, 0, 45, 0, 0, 0, 45, 0, 0, 45, 0, 0, 0, 45, 0, 45] = some (.ok
      ([45, 0, 0, 0, -45, -45, 90, 45, 45, 90, -45, -45, 0, 0, 0, 45], true, none)))) (by decide +kernel)
  obtain ⟨t1, t2, t3, t4, t5, t6, t7, t8⟩ := of_decide_eq_true ht
  exact ⟨c, hc, t3, t4, t5, t6, ssCase true false true c hc _ t1 t2 (by decide) (by decide)
    (by unfold Spec.Symmetric; decide +kernel) t7, t8⟩

end Bella
