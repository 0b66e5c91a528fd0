import Verif.Props.OnePly
/-
Property C59: the repair of one laminate ends.  Steps 1 to 3 end without error for the rule on ply counts, with the missing imports
in place, and so does the whole repair.
-/
namespace Bella

theorem RepairCase.fuel {a : ConsArgs} {P : RepairSetup} {cs : Int → Nat → ℚ} {ss : Stack} (H : RepairCase a P cs ss)
    (f : Nat) : RepairCase a { P with fuel := f } cs ss :=
  ⟨H.cons, H.contig, H.size, H.plies, H.zero, H.symm, H.trig, H.bound, H.flexBound, H.nD2, H.room⟩

/-- Steps 1 to 3 end without error. -/
theorem repairSteps_total {a : ConsArgs} {P : RepairSetup} {cs : Int → Nat → ℚ} {ss : Stack} (H : RepairCase a P cs ss)
    (hab : (P.c.rule10 && P.c.rule10Abdalla) = false) (himp : P.imported = true)
    (h90 : P.c.ipo = true → (90 : Int) ∈ P.c.angles)
    (hmid : P.memSwitch = true → P.c.sym = true → ss.length % 2 = 1 → P.c.ipo = true ∨ P.c.rule10 = true ∨
      ss[ss.length / 2]? = some 0 ∨ ss[ss.length / 2]? = some 90) :
    ∃ s' inward outward ind N, ∀ fuel, N ≤ fuel →
      repairSteps { P with fuel := fuel } ss = some (.ok (s', inward, outward, ind)) := by
  have hbal : ∀ fuel, repair10Bal P.dist P.c P.attr P.mem (calcMini10 P.c ss.length) fuel ss =
      some (.ok (repair10Bal2 P.c (calcMini10 P.c ss.length) ss)) := by
    intro fuel
    unfold repair10Bal
    rw [if_pos hab]
  generalize hsq : repair10Bal2 P.c (calcMini10 P.c ss.length) ss = sq at hbal
  obtain ⟨s, q⟩ := sq
  have S := step1_of H (hbal P.fuel)
  have hlong := H.long.1
  have hcont := plyContent_mem (sym := P.c.sym) S.plies S.queue
  have hclen := content_length P.c.sym s q S.marks
  have hin : MemInput P.c P.mem cs s q := ⟨H.trig, by rw [S.len]; exact H.size, S.plies, S.queue, S.symm, by
    rw [S.len]
    exact H.bound _ (by rw [hclen, S.len]) hcont⟩
  have hne : s ≠ [] := by
    intro e
    have := S.len
    rw [e, List.length_nil] at this
    omega
  have hmem : ∃ cands N, ∀ fuel, N ≤ fuel → repairMembrane P.imported P.memSwitch P.dist P.c P.attr P.mem
      (calcMini10 P.c ss.length) fuel s q = some (.ok cands) := by
    cases hsw : P.memSwitch with
    | false =>
      obtain ⟨lam, hlam⟩ := calcLampamA_ok (angleSet_of a P.c H.cons) P.mem s q hne S.plies S.queue (by
        intro hs ho
        have hlt : s.length / 2 < s.length := by omega
        have hmem : nth s (s.length / 2) ∈ s := by
          unfold nth; rw [List.getD_eq_getElem _ _ hlt]; exact List.getElem_mem _
        rcases S.plies _ hmem with h | h
        · have hc := S.marks
          rw [hs, if_pos rfl] at hc
          have := middle_known (S.symm hs) hc (by omega)
          exact absurd h this
        · exact h)
      refine ⟨[(s, q)], 0, fun fuel _ => ?_⟩
      unfold repairMembrane
      rw [if_pos (Or.inl rfl), hlam]
    | true =>
      exact C57_terminates a P.c H.cons true P.imported P.dist P.attr P.mem cs
        (calcMini10 P.c ss.length) s q hin hne (Or.inl himp) (Or.inr hab) (by
          intro hs ho
          rw [S.len] at ho ⊢
          by_cases hu : P.c.ipo = true ∨ P.c.rule10 = true
          · exact S.mid hab hu hs ho
          · simp only [not_or, Bool.not_eq_true] at hu
            have : s = ss := by
              unfold repair10Bal2 at hsq
              rw [if_pos hu] at hsq
              exact (Prod.mk.inj hsq).1.symm
            rw [this]
            rcases hmid hsw hs ho with h | h | h
            · rw [hu.1] at h; cases h
            · rw [hu.2] at h; cases h
            · exact h) (fun h => ⟨H.zero, h90 h⟩)
  obtain ⟨cands, N, hN⟩ := hmem
  have hcl : ∃ s' inward outward ind, repairDisoContigList P.c P.attr P.nD1 cands = .ok (s', inward, outward, ind) := by
    have hP := repairSteps_cands (H.fuel N) (hbal N) (hN N (le_refl _))
    obtain ⟨hlast, _⟩ := C33_candidates a P.c H.cons P.imported P.memSwitch P.dist P.attr P.mem cs _ N s q hin
      cands (hN N (le_refl _))
    obtain ⟨_, hne⟩ := C27_first_repairable_candidate H.contig P.attr P.nD1 cands (fun p hp => (hP p hp).ok)
    obtain ⟨i, p, res, iw, ow, e1, e2, e3, _, _⟩ := hne (by rintro rfl; simp at hlast)
    exact ⟨res, iw, ow, i, e2⟩
  obtain ⟨s', iw, ow, ind, hcl⟩ := hcl
  refine ⟨s', iw, ow, ind, N, fun fuel hf => ?_⟩
  unfold repairSteps
  dsimp only
  rw [hbal fuel]
  dsimp only
  rw [hN fuel hf]
  dsimp only
  rw [hcl]

/-- The outcome of the first three steps does not depend on the bound on the iterations once they end; the flexural step does not
loop. -/
theorem repairSs_total {a : ConsArgs} {P : RepairSetup} {cs : Int → Nat → ℚ} {ss : Stack} (H : RepairCase a P cs ss)
    (hab : (P.c.rule10 && P.c.rule10Abdalla) = false) (himp : P.imported = true)
    (h90 : P.c.ipo = true → (90 : Int) ∈ P.c.angles)
    (hmid : P.memSwitch = true → P.c.sym = true → ss.length % 2 = 1 → P.c.ipo = true ∨ P.c.rule10 = true ∨
      ss[ss.length / 2]? = some 0 ∨ ss[ss.length / 2]? = some 90)
    (hflex : ∀ s' inward ind fuel, repairSteps { P with fuel := fuel } ss = some (.ok (s', inward, true, ind)) →
      ∃ res, repairFlexural P.c P.attr P.flex P.calcLampamD P.nD2 P.nD3 false P.flexSwitch P.flexZero s' = .ok res) :
    ∃ res ok N, ∀ fuel, N ≤ fuel → repairSs { P with fuel := fuel } none ss = some (.ok (res, ok, none)) := by
  obtain ⟨s', iw, ow, ind, N, h⟩ := repairSteps_total H hab himp h90 hmid
  cases ow with
  | false =>
    refine ⟨ss, false, N, fun fuel hf => ?_⟩
    unfold repairSs
    rw [h fuel hf]
    rfl
  | true =>
    obtain ⟨res, hres⟩ := hflex s' iw ind N (h N (le_refl _))
    refine ⟨res, true, N, fun fuel hf => ?_⟩
    unfold repairSs
    rw [h fuel hf]
    dsimp only
    rw [if_pos rfl, hres]
    rfl

/-- C59: `repair_ss` ends: for the 10% rule on ply counts (or none), with the missing imports in place and the out-of-plane
refinement off, there is a number of iterations after which it has returned a laminate and told whether it is repaired, without
error (the middle ply of a symmetric laminate being 0 or 90 when neither balance nor the 10% rule is required and the in-plane refinement is on). -/
theorem C59_terminates_unrefined (a : ConsArgs) (P : RepairSetup) (cs : Int → Nat → ℚ) (ss : Stack) (H : RepairCase a P cs ss)
    (hab : (P.c.rule10 && P.c.rule10Abdalla) = false) (himp : P.imported = true)
    (h90 : P.c.ipo = true → (90 : Int) ∈ P.c.angles)
    (hmid : P.memSwitch = true → P.c.sym = true → ss.length % 2 = 1 → P.c.ipo = true ∨ P.c.rule10 = true ∨
      ss[ss.length / 2]? = some 0 ∨ ss[ss.length / 2]? = some 90)
    (hoff : P.flexSwitch = false ∨ P.flexZero = true) :
    ∃ res ok N, ∀ fuel, N ≤ fuel → repairSs { P with fuel := fuel } none ss = some (.ok (res, ok, none)) :=
  repairSs_total H hab himp h90 hmid (fun s' _ _ _ _ => ⟨s', C56_flexural_off hoff⟩)

/-- C59: with the out-of-plane refinement on, `repair_ss` ends without error for laminates that are not symmetric with an odd number
of plies; where damage tolerance protects two plies of each face these must differ if there is a contiguity rule (limit of contiguity
not above the number of plies permuted, some sizes excluded as in C28). -/
theorem C59_terminates_refined (a : ConsArgs) (P : RepairSetup) (cs : Int → Nat → ℚ) (ss : Stack) (H : RepairCase a P cs ss)
    (hab : (P.c.rule10 && P.c.rule10Abdalla) = false) (himp : P.imported = true)
    (h90 : P.c.ipo = true → (90 : Int) ∈ P.c.angles) (r : Int) (hattr : P.attr = .rule r)
    (hdiff : P.c.contig = true → P.c.damTol = true → r = 2 ∨ r = 3 →
      nth ss 0 ≠ nth ss 1 ∧ nth ss (ss.length - 1) ≠ nth ss (ss.length - 2))
    (hdelta : 0 ≤ P.c.deltaAngle) (hD1 : 1 ≤ P.nD1) (hev : P.c.sym = true → ss.length % 2 = 0)
    (hcon : P.c.contig = true → P.c.nContig ≤ P.nD1)
    (hsize : P.c.sym = false → ss.length - 2 * (nKeptOut P.c P.attr - 1) ≠
      4 + min P.nD1 (ss.length - 2 * nKeptIn P.c P.attr - 1) + P.c.nContig)
    (hsize' : P.c.sym = true → ss.length ≤ P.c.nContig ∨ P.c.nContig + 2 * nKeptOut P.c P.attr ≤ ss.length) :
    ∃ res ok N, ∀ fuel, N ≤ fuel → repairSs { P with fuel := fuel } none ss = some (.ok (res, ok, none)) := by
  refine repairSs_total H hab himp h90 (fun _ h1 h2 => ?_) (fun s' iw ind fuel hst => ?_)
  · have := hev h1
    omega
  · obtain ⟨res, h, _⟩ := protected_flexural (H.fuel fuel) r hattr (fun h1 h2 h3 => by
      change P.attr.twoPlies = true at h3
      rw [hattr] at h3
      exact hdiff h1 h2 (by simpa [DamTolAttr.twoPlies] using h3)) hdelta hD1 hev hcon hsize hsize' hst (multipanel := false)
    exact ⟨res, h⟩

/-- C59 (violation found): without balance and 10% rule, every symmetric laminate with an odd number of plies whose middle ply is
neither 0 nor 90 makes `repair_ss` raise the exception "This should not happen", when the in-plane refinement is on. -/
theorem C59_middle_ply_violation (a : ConsArgs) (P : RepairSetup) (cs : Int → Nat → ℚ) (ss : Stack) (H : RepairCase a P cs ss)
    (hbal : P.c.ipo = false) (h10 : P.c.rule10 = false) (himp : P.imported = true) (hon : P.memSwitch = true)
    (hco : memNoCoeffs P.mem = false) (hsym : P.c.sym = true) (hodd : ss.length % 2 = 1)
    (hmid : ss[ss.length / 2]? ≠ some 0 ∧ ss[ss.length / 2]? ≠ some 90) (obj : Option ℚ) :
    repairSs P obj ss = some (.error (.exc "This should not happen")) := by
  have hlong := H.long.1
  have hlt : ss.length / 2 < ss.length := by omega
  have hne : ss ≠ [] := by
    rintro rfl
    simp at hodd
  rw [nth_some hlt] at hmid
  simp only [ne_eq, Option.some.injEq] at hmid
  obtain ⟨lam, hlam⟩ := calcLampamA_ok (angleSet_of a P.c H.cons) P.mem ss [] hne (fun x hx => Or.inr (H.plies x hx)) (by simp)
    (fun _ _ => H.plies _ (by unfold nth; rw [List.getD_eq_getElem _ _ hlt]; exact List.getElem_mem _))
  have h1 : repair10Bal P.dist P.c P.attr P.mem (calcMini10 P.c ss.length) P.fuel ss = some (.ok (ss, [])) := by
    unfold repair10Bal repair10Bal2
    rw [h10, hbal]
    rfl
  have h2 : memStart P.c P.attr P.mem false (calcMini10 P.c ss.length) ss [] = .error (.exc "This should not happen") := by
    unfold memStart startExcess calcExcess10
    rw [hlam, hsym]
    simp only [Bool.false_eq_true, if_false, if_true, bind, Except.bind]
    rw [if_pos ⟨by omega, hmid.1, hmid.2⟩]
  have h3 : repairMembrane P.imported P.memSwitch P.dist P.c P.attr P.mem (calcMini10 P.c ss.length) P.fuel ss [] =
      some (.error (.exc "This should not happen")) := by
    unfold repairMembrane
    rw [if_neg (by rw [hon, hco]; simp)]
    unfold repairMembrane1 memOne
    rw [hbal, himp, h10]
    simp only [Bool.false_and, Bool.false_eq_true, if_false, h2]
    rfl
  unfold repairSs repairSteps
  dsimp only
  rw [h1]
  dsimp only
  rw [h3]

/-- Symmetric designs with disorientation and contiguity rules, neither balance nor 10% rule. -/
def midArgs : ConsArgs where
  sym := true
  diso := true
  deltaAngle := 45
  contig := true
  nContig := 5

set_option synthInstance.maxHeartbeats 200000 in
set_option synthInstance.maxSize 1000 in
/-- The violation: seven plies with the middle ply 45. -/
example : ∃ c, mkConstraints midArgs = .ok c ∧ c.ipo = false ∧ c.rule10 = false ∧ c.sym = true ∧
    RepairCase midArgs (ssSetup c true false) trig4 [0, 45, 90, 45, 90, 45, 0] ∧
    memNoCoeffs (ssSetup c true false).mem = false ∧
    repairSs (ssSetup c true false) none [0, 45, 90, 45, 90, 45, 0] = some (.error (.exc "This should not happen")) := by
  obtain ⟨c, hc, ht⟩ := ok_of_test (mkConstraints midArgs) (fun (c : Cons) => decide (ContigCons c ∧
    c.angles = [-45, 0, 45, 90] ∧ c.ipo = false ∧ c.rule10 = false ∧ c.sym = true ∧
    ((⌈(calcMini10 c 7).m0⌉ + ⌈(calcMini10 c 7).m90⌉ +
      max ((calcMini10 c 7).m45 + (calcMini10 c 7).m135) (calcMini10 c 7).m45_135 +
      (if c.sym then 2 else 4) * (if c.damTol = true ∧ c.damTolAttr.twoPlies = true then 2 else 1) : Int) ≤
      Spec.designPlies c.sym 7) ∧ memNoCoeffs (ssSetup c true false).mem = false)) (by decide +kernel)
  obtain ⟨t1, t2, t3, t4, t5, t6, t7⟩ := of_decide_eq_true ht
  have H := ssCase_of midArgs true false c hc [0, 45, 90, 45, 90, 45, 0] t1 t2 (by decide) (by decide)
    (by unfold Spec.Symmetric; decide +kernel) t6
  exact ⟨c, hc, t3, t4, t5, H, t7, C59_middle_ply_violation midArgs _ trig4 _ H t3 t4 rfl rfl t7 t5 (by decide) (by decide) none⟩

set_option synthInstance.maxHeartbeats 200000 in
set_option synthInstance.maxSize 1000 in
/-- The hypotheses of both termination theorems on a damage tolerant laminate with in-plane refinement. -/
example : ∃ c, mkConstraints (ssArgs true) = .ok c ∧
    RepairCase (ssArgs true) (ssSetup c true true) trig4 [45, 0, 45, 0, 0, 0, 45, 0, 0, 45, 0, 0, 0, 45, 0, 45] ∧
    ∃ res ok N, ∀ fuel, N ≤ fuel → repairSs { ssSetup c true true with fuel := fuel } none
      [45, 0, 45, 0, 0, 0, 45, 0, 0, 45, 0, 0, 0, 45, 0, 45] = some (.ok (res, ok, none)) := by
  obtain ⟨c, hc, ht⟩ := ok_of_test (mkConstraints (ssArgs true)) (fun (c : Cons) => decide (ContigCons c ∧
    c.angles = [-45, 0, 45, 90] ∧ (c.rule10 && c.rule10Abdalla) = false ∧ c.damTolAttr = .rule 1 ∧ c.deltaAngle = 45 ∧
    c.nContig = 5 ∧ c.sym = true ∧ nKeptOut c c.damTolAttr = 1 ∧
    ((⌈(calcMini10 c 16).m0⌉ + ⌈(calcMini10 c 16).m90⌉ +
      max ((calcMini10 c 16).m45 + (calcMini10 c 16).m135) (calcMini10 c 16).m45_135 +
      (if c.sym then 2 else 4) * (if c.damTol = true ∧ c.damTolAttr.twoPlies = true then 2 else 1) : Int) ≤
      Spec.designPlies c.sym 16))) (by decide +kernel)
  obtain ⟨t1, t2, t3, t4, t5, t6, t7, t8, t9⟩ := of_decide_eq_true ht
  have H := ssCase (damTol := true) true true c hc [45, 0, 45, 0, 0, 0, 45, 0, 0, 45, 0, 0, 0, 45, 0, 45] t1 t2 (by decide)
    (by decide) (by unfold Spec.Symmetric; decide +kernel) t9
  refine ⟨c, hc, H, C59_terminates_refined (ssArgs true) _ trig4 _ H t3 rfl (fun _ => ?_) 1 t4 (fun _ _ h => ?_) ?_ ?_ (fun _ => ?_)
    (fun _ => ?_) (fun h => ?_) (fun _ => ?_)⟩
  · show (90 : Int) ∈ c.angles
    rw [t2]; decide
  · omega
  · show 0 ≤ c.deltaAngle
    rw [t5]; decide
  · show 1 ≤ 6
    decide
  · decide
  · show c.nContig ≤ 6
    rw [t6]; decide
  · change c.sym = false at h
    rw [t7] at h
    cases h
  · right
    show c.nContig + 2 * nKeptOut c c.damTolAttr ≤ 16
    rw [t6, t8]; decide

end Bella
