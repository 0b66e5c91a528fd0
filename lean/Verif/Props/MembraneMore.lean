import Verif.Proofs.MembraneEnd
import Mathlib.Algebra.Order.Archimedean.Basic
/-
C33, C57: the Abdalla variant, the trivial cases, termination and its failures.
-/
namespace Bella

/-- C33: with the rule on lamination parameters (Abdalla), a candidate is the input or its in-plane lamination
parameters are at a distance of at most 1e-10 from the feasible region. -/
theorem C33_abdalla (args : ConsArgs) (c : Cons) (hc : mkConstraints args = .ok c)
    (habd : (c.rule10 && c.rule10Abdalla) = true) (imported switch : Bool)
    (dist : (Nat → ℚ) → ℚ) (attr : DamTolAttr) (D : MemData) (cs : Int → Nat → ℚ) (mini : Mini10) (fuel : Nat)
    (ss : Stack) (q : List Int) (hin : MemInput c D cs ss q) (out : List (Stack × List Int))
    (h : repairMembrane imported switch dist c attr D mini fuel ss q = some (.ok out)) :
    ∀ x ∈ out, x = (ss, q) ∨
      dist (Spec.inPlane cs ss.length (Spec.plyContent c.sym x.1 x.2)) ≤ 1 / 10 ^ 10 := by
  have A := angleSet_of args c hc
  rcases membrane_cases h with rfl | ⟨st, hst, rfl⟩
  · intro x hx
    rw [List.mem_singleton] at hx
    exact Or.inl hx
  · let R : Stack → List Int → (Nat → ℚ) → (Nat → ℚ) → Prop := fun s p lam _ =>
      (s, p) = (ss, q) ∨ dist lam ≤ 1 / 10 ^ 10
    have hg : ∀ g e lam a1 a2 e', memGuard (c.rule10 && c.rule10Abdalla) dist g e lam a1 a2 = some e' →
        dist lam ≤ 1 / 10 ^ 10 := by
      intro g e lam a1 a2 e' hh
      unfold memGuard guardAbdalla at hh
      rw [if_pos habd] at hh
      split_ifs at hh with h1
      exact not_lt.1 h1
    obtain ⟨lam, hl, hO⟩ := repairMembrane1_out A imported dist attr D mini fuel ss q hin.size hin.plies hin.queue hin.symm
      R (fun _ _ _ _ => Or.inl rfl)
      (fun _ => fun s p lam e s' p' lam' e' a1 a2 _ _ _ _ _ hh => Or.inr (hg _ _ _ _ _ _ hh))
      (fun _ => ⟨fun s p lam e s' p' lam' e' a1 a2 _ _ _ _ _ hh => Or.inr (hg _ _ _ _ _ _ hh),
        fun s p lam e s' p' lam' a b k _ _ _ _ hh => ⟨fun _ => 0, Or.inr (by
          unfold lastOk at hh
          rw [if_pos habd] at hh
          have : dist lam' = 0 := by simpa using hh
          rw [this]
          norm_num)⟩⟩) (fun lam hl => hin.obj A lam hl) st hst
    have hmid := (calcLampamA_spec A D ss q lam hin.plies hin.queue hl).2.1
    intro y hy
    obtain ⟨x, hx, rfl⟩ := List.mem_map.1 hy
    obtain ⟨hk, e, hR⟩ := hO.outs x hx
    rcases hR with hR | hR
    · exact Or.inl hR
    · right
      rw [cand_lam A D cs hin.trig ss q hin.plies hin.queue (indices1_ok c attr D.pA ss.length) hmid x hk] at hR
      exact hR

/-- C33: with the refinement switched off, or with coefficients all (close to) zero, the input is the only
candidate. -/
theorem C33_off (imported switch : Bool) (dist : (Nat → ℚ) → ℚ) (c : Cons) (attr : DamTolAttr) (D : MemData)
    (mini : Mini10) (fuel : Nat) (ss : Stack) (q : List Int)
    (hoff : switch = false ∨ ∀ k, k < 4 → D.coeffs k = 0)
    (r : Py (List (Stack × List Int)))
    (h : repairMembrane imported switch dist c attr D mini fuel ss q = some r) :
    (∃ e, r = .error e) ∨ r = .ok [(ss, q)] := by
  have hz : switch = false ∨ memNoCoeffs D = true := by
    rcases hoff with h1 | h1
    · exact Or.inl h1
    · right
      unfold memNoCoeffs
      rw [List.all_eq_true]
      intro k hk
      rw [List.mem_range] at hk
      rw [h1 k hk]
      norm_num
  unfold repairMembrane at h
  rw [if_pos hz] at h
  cases h1 : calcLampamA c D ss q with
  | error e => rw [h1] at h; cases h; exact Or.inl ⟨e, rfl⟩
  | ok lam => rw [h1] at h; cases h; exact Or.inr rfl

/-- C33 (violation): as they stand, the two modules of the refinement for the rule on ply counts miss imports: every
call with the refinement switched on and non-zero coefficients raises an exception. -/
theorem C33_as_pinned_crashes (dist : (Nat → ℚ) → ℚ) (c : Cons) (attr : DamTolAttr) (D : MemData)
    (mini : Mini10) (fuel : Nat) (ss : Stack) (q : List Int)
    (habd : (c.rule10 && c.rule10Abdalla) = false) (hco : memNoCoeffs D = false) :
    ∃ e, repairMembrane false true dist c attr D mini fuel ss q = some (.error e) := by
  unfold repairMembrane
  rw [if_neg (by simp [hco])]
  unfold repairMembrane1
  dsimp only
  rw [habd]
  split_ifs
  · unfold memTwo
    cases memStart c attr D false mini ss q with
    | error e => exact ⟨e, rfl⟩
    | ok p => exact ⟨_, rfl⟩
  · unfold memOne
    exact ⟨_, rfl⟩

/-- C57: with the imports in place the refinement ends and raises no error, except with in-plane orthotropy and
the Abdalla rule together: there is a number of iterations after which the result is known. -/
theorem C57_terminates (args : ConsArgs) (c : Cons) (hc : mkConstraints args = .ok c) (switch imported : Bool)
    (dist : (Nat → ℚ) → ℚ) (attr : DamTolAttr) (D : MemData) (cs : Int → Nat → ℚ) (mini : Mini10)
    (ss : Stack) (q : List Int) (hin : MemInput c D cs ss q) (hne : ss ≠ [])
    (himp : imported = true ∨ (c.rule10 && c.rule10Abdalla) = true)
    (hvar : c.ipo = false ∨ (c.rule10 && c.rule10Abdalla) = false)
    (hmid : c.sym = true → ss.length % 2 = 1 → ss[ss.length / 2]? = some 0 ∨ ss[ss.length / 2]? = some 90)
    (h090 : c.ipo = true → (0 : Int) ∈ c.angles ∧ (90 : Int) ∈ c.angles) :
    ∃ out N, ∀ fuel, N ≤ fuel →
      repairMembrane imported switch dist c attr D mini fuel ss q = some (.ok out) := by
  have A := angleSet_of args c hc
  have hmid' : c.sym = true → ss.length % 2 ≠ 0 → nth ss (ss.length / 2) = 0 ∨ nth ss (ss.length / 2) = 90 := by
    intro hs ho
    have := hmid hs (by omega)
    rw [nth_some (by omega : ss.length / 2 < ss.length)] at this
    simpa using this
  have hmidA : c.sym = true → ss.length % 2 ≠ 0 → nth ss (ss.length / 2) ∈ c.angles := by
    intro hs ho
    have hlt : ss.length / 2 < ss.length := by omega
    have hmem : nth ss (ss.length / 2) ∈ ss := by
      unfold nth; rw [List.getD_eq_getElem _ _ hlt]; exact List.getElem_mem _
    rcases hin.plies _ hmem with h | h
    · have := hmid' hs ho
      omega
    · exact h
  obtain ⟨lam, hlam⟩ := calcLampamA_ok A D ss q hne hin.plies hin.queue hmidA
  unfold repairMembrane
  by_cases hoff : switch = false ∨ memNoCoeffs D = true
  · refine ⟨[(ss, q)], 0, ?_⟩
    intro fuel _
    rw [if_pos hoff, hlam]
  · simp only [if_neg hoff]
    have key : ∃ st N, ∀ fuel, N ≤ fuel → repairMembrane1 imported dist c attr D mini fuel ss q = some (.ok st) := by
      unfold repairMembrane1
      dsimp only
      generalize habd : (c.rule10 && c.rule10Abdalla) = abd at *
      obtain ⟨⟨st0, ind⟩, hst⟩ := memStart_ok A attr D abd mini ss q hne hin.plies hin.queue
        (fun h1 h2 => ⟨hmidA h1 h2, fun _ => hmid' h1 h2⟩)
      have hkeep := keeps_true c abd dist (indices1 c attr D.pA ss.length) ss.length
      obtain ⟨rfl, lam', hl', hI⟩ := memStart_inv A attr D abd mini ss q hin.size hin.plies hin.queue hin.symm
        (fun _ _ _ _ => True) (fun _ _ _ _ => trivial) (fun lam hl => hin.obj A lam hl) st0 ind hst
      have hind := indices1_ok c attr D.pA ss.length
      have himp' : ¬ (abd = false ∧ imported = false) := by
        rintro ⟨h1, h2⟩
        rcases himp with h | h
        · rw [h] at h2; cases h2
        · rw [h] at h1; cases h1
      obtain ⟨K, hK⟩ : ∃ K : Nat, st0.obj * 10 ^ 20 ≤ K := exists_nat_ge _
      by_cases hi : c.ipo = true
      · have habf : abd = false := by
          rcases hvar with h | h
          · rw [h] at hi; cases hi
          · exact h
        subst habf
        obtain ⟨lo, hlo⟩ := options1_ok A D ss.length
        have hlone : lo ≠ [] := by
          rw [ne_eq, ← List.length_eq_zero_iff, (options1_spec A D _ lo hlo).1, List.length_eq_zero_iff]
          intro he
          obtain ⟨a, ha⟩ := List.exists_mem_of_ne_nil _ A.ne
          have : (a.natAbs : Int) ∈ c.posAngles := by
            rw [A.pos, mem_npUnique]
            exact List.mem_map.2 ⟨a, ha, rfl⟩
          rw [he] at this
          cases this
        obtain ⟨st1, N, hN⟩ := memLoop_end (D := D) (lo := lo) hlone
          (step := memStepTwo false dist c (indices1 c attr D.pA ss.length) lo)
          (MInv c (indices1 c attr D.pA ss.length) D ss q (midTerm c D ss) (fun _ _ _ _ => True)
            ⟨ss, q, lam', memObj D lam'⟩)
          (fun st h => h.le)
          (fun st opts opts' _ _ hs => by
            obtain ⟨f, hf, hf2⟩ := memStepTwo_skip hs
            rw [hf, hf2 rfl])
          (fun st opts st' hI hO hlt hs => by
            obtain ⟨ht, hv⟩ := optInv_best hO hlone st.obj hI.le hlt
            have hl := minv_len hI
            obtain ⟨a1, a2, m1, m2, hm, hob, hlam2, hg⟩ := memStepTwo_spec A false dist D _ ss.length _ lo hlo st st' opts
              hl.1 hind hl.2 hI.binv ht hs
            exact ⟨minv_move hI hm (by rw [hob, hv, hlam2]) (by rw [hob]; exact hlt) trivial, hob⟩)
          (fun st opts hI hO hlt => by
            obtain ⟨ht, hv⟩ := optInv_best hO hlone st.obj hI.le hlt
            exact memStepTwo_ok A false dist D (Or.inl rfl) _ ss.length _ lo hlo st opts (minv_len hI).1 hind hI.binv ht)
          K _ st0 (objOptions D lo st0.lam) hI (optInv_init D lo st0.lam) hK (le_refl _)
        have hI1 := memLoopTwo_inv A false dist D _ _ ss q (midTerm c D ss) lo hlo hind (fun _ _ _ _ => True) hkeep.2.1 _
          N st0 st1 _ hI (optInv_init D lo st0.lam) (hN N (le_refl _))
        obtain ⟨st2, hst2⟩ := memLast_ok A false dist D _ lo st1 hI1.binv (h090 hi).1 (h090 hi).2
        refine ⟨st2, N, ?_⟩
        intro fuel hf
        rw [if_pos hi]
        unfold memTwo
        rw [hst]
        dsimp only
        rw [if_neg himp', hlo]
        dsimp only
        rw [hN fuel hf]
        dsimp only
        rw [hst2]
      · have hlone : lampamOptions3 c D ss.length ≠ [] := by
          rw [ne_eq, ← List.length_eq_zero_iff, options3_length c A, List.length_eq_zero_iff]
          exact A.ne
        obtain ⟨st1, N, hN⟩ := memLoop_end (D := D) (lo := lampamOptions3 c D ss.length) hlone
          (step := memStepOne abd dist c (indices1 c attr D.pA ss.length) (lampamOptions3 c D ss.length))
          (MInv c (indices1 c attr D.pA ss.length) D ss q (midTerm c D ss) (fun _ _ _ _ => True)
            ⟨ss, q, lam', memObj D lam'⟩)
          (fun st h => h.le)
          (fun st opts opts' _ _ hs => memStepOne_skip hs)
          (fun st opts st' hI hO hlt hs => by
            obtain ⟨ht, hv⟩ := optInv_best hO hlone st.obj hI.le hlt
            have hl := minv_len hI
            rw [options3_length c A] at ht
            obtain ⟨a1, a2, hm, hob, hlam2, hg⟩ := memStepOne_spec A abd dist D _ ss.length _ st st' opts hl.1 hind hl.2
              hI.binv ht hs
            exact ⟨minv_move hI hm (by rw [hob, hv, hlam2]) (by rw [hob]; exact hlt) trivial, hob⟩)
          (fun st opts hI hO hlt => by
            obtain ⟨ht, hv⟩ := optInv_best hO hlone st.obj hI.le hlt
            rw [options3_length c A] at ht
            exact memStepOne_ok A abd dist D _ ss.length _ st opts hind hI.binv ht)
          K _ st0 (objOptions D _ st0.lam) hI (optInv_init D _ st0.lam) hK (le_refl _)
        refine ⟨st1, N, ?_⟩
        intro fuel hf
        rw [if_neg hi]
        unfold memOne
        rw [if_neg himp', hst]
        exact hN fuel hf
    obtain ⟨st, N, hN⟩ := key
    refine ⟨st.out.map (fun (x : MemCand) => (x.ss, x.queue)), N, ?_⟩
    intro fuel hf
    rw [hN fuel hf]

/-! ### The hypotheses are met: concrete cases -/

/-- Trigonometric functions of the four usual angles: cos 2a, cos 4a, sin 2a, sin 4a. -/
def trig4 (a : Int) (k : Nat) : ℚ :=
  if k = 0 then (if a = 0 then 1 else if a = 90 then -1 else 0)
  else if k = 1 then (if a = 0 ∨ a = 90 then 1 else -1)
  else if k = 2 then (if a = 45 then 1 else if a = -45 then -1 else 0) else 0

/-- Objective with given targets of the first two lamination parameters. -/
def trigData (t0 t1 : ℚ) : MemData where
  cosSin := fun r k => trig4 (nth [-45, 0, 45, 90] r) k
  coeffs := fun k => if k < 2 then 1 else 0
  target := fun k => if k = 0 then t0 else if k = 1 then t1 else 0
  pA := 100

theorem trigData_trig (t0 t1 : ℚ) (r : Nat) (a : Int) (h : ([-45, 0, 45, 90] : List Int)[r]? = some a) (k : Nat) :
    (trigData t0 t1).cosSin r k = trig4 a k := by
  show trig4 (nth [-45, 0, 45, 90] r) k = trig4 a k
  obtain ⟨h1, h2⟩ := List.getElem?_eq_some_iff.1 h
  unfold nth
  rw [List.getD_eq_getElem _ _ h1, h2]

/-- Symmetric and balanced designs, 10% rule on ply counts. -/
def memArgs : ConsArgs where
  sym := true
  bal := true
  rule10 := true
  percent0 := 10
  percent90 := 10
  percent45 := 10
  percent135 := 10

def memStack : Stack := [45, -45, 0, 90, 45, -45, 45, -45, 666, 666, 666, 666, -45, 45, -45, 45, 90, 0, -45, 45]

/-- The hypotheses of all the theorems above on the rule on ply counts are met, and the refinement makes two changes. -/
example : ∃ c out, mkConstraints memArgs = .ok c ∧ (c.rule10 && c.rule10Abdalla) = false ∧ c.ipo = true ∧
    MemInput c (trigData (1 / 2) 1) trig4 memStack [0, 90] ∧
    memStack.count 666 = (if c.sym then 2 else 1) * [(0 : Int), 90].length ∧
    Spec.Balanced (Spec.plyContent c.sym memStack [0, 90]) ∧
    Spec.MeetsShares c.shares 0 ((Spec.plyContent c.sym memStack [0, 90]).count 0)
      ((Spec.plyContent c.sym memStack [0, 90]).count 90) ((Spec.plyContent c.sym memStack [0, 90]).count 45)
      ((Spec.plyContent c.sym memStack [0, 90]).count (-45)) memStack.length ∧
    repairMembrane true true (fun _ => 0) c c.damTolAttr (trigData (1 / 2) 1) (calcMini10 c memStack.length) 100
      memStack [0, 90] = some (.ok out) ∧ out.length = 3 := by
  obtain ⟨c, hc, ht⟩ := ok_of_test (mkConstraints memArgs) (fun (c : Cons) =>
    decide (c.angles = [-45, 0, 45, 90] ∧ c.sym = true ∧ c.ipo = true ∧ (c.rule10 && c.rule10Abdalla) = false ∧
      c.shares.s0 = 1 / 10 ∧ c.shares.s90 = 1 / 10 ∧ c.shares.s45 = 1 / 10 ∧ c.shares.s135 = 1 / 10 ∧ c.shares.s45_135 ≤ 1 / 5 ∧
      (match repairMembrane true true (fun _ => 0) c c.damTolAttr (trigData (1 / 2) 1) (calcMini10 c memStack.length) 100
        memStack [0, 90] with
       | some (.ok out) => decide (out.length = 3)
       | _ => false) = true)) (by decide +kernel)
  obtain ⟨h1, h2, h3, h4, s0, s90, s45, s135, s4, h5⟩ := of_decide_eq_true ht
  split at h5
  · rename_i out hout
    replace h5 := of_decide_eq_true h5
    refine ⟨c, out, hc, h4, h3, ?_, by rw [h2]; decide, ?_, ?_, hout, h5⟩
    · refine ⟨?_, by decide, ?_, ?_, fun _ => by unfold Spec.Symmetric; decide +kernel, ?_⟩
      · rw [h1]; exact trigData_trig _ _
      · rw [h1]; decide
      · rw [h1]; decide
      · rw [h2]; decide +kernel
    · rw [h2]
      intro a h0 h9 h9'
      by_cases h45 : a = 45
      · subst h45; decide +kernel
      · by_cases h135 : a = -45
        · subst h135; decide +kernel
        · rw [List.count_eq_zero.2, List.count_eq_zero.2]
          · intro hm
            have : -a ∈ ([45, -45, 0, 90] : List Int) :=
              (by decide : ∀ x ∈ Spec.plyContent true memStack [0, 90], x ∈ ([45, -45, 0, 90] : List Int)) _ hm
            simp only [List.mem_cons, List.not_mem_nil, or_false] at this
            omega
          · intro hm
            have : a ∈ ([45, -45, 0, 90] : List Int) :=
              (by decide : ∀ x ∈ Spec.plyContent true memStack [0, 90], x ∈ ([45, -45, 0, 90] : List Int)) _ hm
            simp only [List.mem_cons, List.not_mem_nil, or_false] at this
            omega
    · rw [h2]
      have e0 : (Spec.plyContent true memStack [0, 90]).count 0 = 4 := by decide +kernel
      have e90 : (Spec.plyContent true memStack [0, 90]).count 90 = 4 := by decide +kernel
      have e45 : (Spec.plyContent true memStack [0, 90]).count 45 = 6 := by decide +kernel
      have e135 : (Spec.plyContent true memStack [0, 90]).count (-45) = 6 := by decide +kernel
      rw [e0, e90, e45, e135]
      unfold Spec.MeetsShares
      rw [s0, s90, s45, s135]
      have el : (memStack.length : ℚ) = 20 := by decide +kernel
      rw [el]
      norm_num
      linarith
  · exact absurd h5 (by decide)

/-! ### What the refinement does not guarantee -/

/-- Asymmetric designs, at least 20% of +45 and -45 plies together. -/
def memArgs45 : ConsArgs where
  rule10 := true
  percent45_135 := 20

/-- C33 (violation): without balance, the minimum for +45 and -45 together is not protected: a laminate which has the
requested 20% of +-45 plies gets candidates without any. -/
theorem C33_combined_violated : ∃ c out, mkConstraints memArgs45 = .ok c ∧
    MemInput c (trigData (1 / 2) 1) trig4 [45, -45, 0, 0, 0, 90, 0, 0, 90, 0] [] ∧
    c.p45_135 = 1 / 5 ∧
    repairMembrane true true (fun _ => 0) c c.damTolAttr (trigData (1 / 2) 1) (calcMini10 c 10) 100
      [45, -45, 0, 0, 0, 90, 0, 0, 90, 0] [] = some (.ok out) ∧
    ∃ x ∈ out, x.1.count 45 = 0 ∧ x.1.count (-45) = 0 ∧ x.2 = [] := by
  obtain ⟨c, hc, ht⟩ := ok_of_test (mkConstraints memArgs45) (fun (c : Cons) =>
    decide (c.angles = [-45, 0, 45, 90] ∧ c.sym = false ∧ c.p45_135 = 1 / 5 ∧
      (match repairMembrane true true (fun _ => 0) c c.damTolAttr (trigData (1 / 2) 1) (calcMini10 c 10) 100
        [45, -45, 0, 0, 0, 90, 0, 0, 90, 0] [] with
       | some (.ok out) => decide (∃ x ∈ out, x.1.count 45 = 0 ∧ x.1.count (-45) = 0 ∧ x.2 = [])
       | _ => false) = true)) (by decide +kernel)
  obtain ⟨h1, h2, h3, h5⟩ := of_decide_eq_true ht
  split at h5
  · rename_i out hout
    replace h5 := of_decide_eq_true h5
    refine ⟨c, out, hc, ?_, h3, hout, h5⟩
    refine ⟨?_, by decide, ?_, by simp, (fun h => by rw [h2] at h; cases h), ?_⟩
    · rw [h1]; exact trigData_trig _ _
    · rw [h1]; decide
    · rw [h2]; decide +kernel
  · exact absurd h5 (by decide)

/-- Asymmetric balanced designs with the Abdalla rule. -/
def memArgsAbdalla : ConsArgs where
  bal := true
  rule10 := true
  rule10Abdalla := true
  percentAbdalla := 10

def memStackAbdalla : Stack := [45, -45, 45, -45, 45, -45, 45, -45, 0, 90, 45, -45, 45, -45, 45, -45, 45, -45, 0, 90]

/-- A state in which the best option is rejected and another one is overwritten. -/
theorem memStepTwo_stuck (dist : (Nat → ℚ) → ℚ) (c : Cons) (ind : List Nat) (lo : List (Nat → ℚ)) (st : MemState)
    (opts : List ℚ) (h1 : argMin opts = 1) (hlo : lo.length = 3) (ha1 : nth c.posAngles 0 = 0) (ha2 : nth c.posAngles 1 = 45)
    (r0 : rowOf c 0 = .ok 1) (r45 : rowOf c 45 = .ok 2) (r45m : rowOf c (-45) = .ok 0)
    (hcp : hasCouple st.idx 0 1 1 = true) (hd : dist (lamAfter lo st.lam 1) > 1 / 10 ^ 10) :
    memStepTwo true dist c ind lo st opts = .ok (.skip (opts.set 5 (10 ^ 10))) := by
  have hg : memGuard true dist guard10Pair st.exc (lamAfter lo st.lam 1) 0 45 = none := by
    unfold memGuard guardAbdalla
    rw [if_pos rfl, if_pos hd]
  have e0 : nth c.posAngles (1 / 3) = 0 := ha1
  have e1 : nth c.posAngles (1 % 3) = 45 := ha2
  unfold memStepTwo
  dsimp only
  rw [h1, hlo, e0, e1]
  simp only [neg_zero, r0, r45, r45m, bind, Except.bind, hcp, Bool.true_eq_false, if_false]
  rw [hg]
  rfl

/-- C57 (violation): with in-plane orthotropy and the Abdalla rule the refinement may run for ever: the rejected option
is not the one which is discarded.  For this laminate of 20 plies (with two 0 plies, two 90 plies, eight +45 and
eight -45 plies) the best change replaces the 0 plies by a couple of +-45 plies; if it is rejected, the loop
never ends. -/
theorem C57_abdalla_never_ends (dist : (Nat → ℚ) → ℚ)
    (hdist : ∀ lam, lam 0 = -1 / 10 → lam 1 = -4 / 5 → dist lam > 1 / 10 ^ 10) :
    ∃ c, mkConstraints memArgsAbdalla = .ok c ∧ MemInput c (trigData 0 (-1)) trig4 memStackAbdalla [] ∧
    ∀ imported fuel, repairMembrane imported true dist c c.damTolAttr (trigData 0 (-1)) (calcMini10 c 20) fuel
      memStackAbdalla [] = none := by
  obtain ⟨c, hc, ht⟩ := ok_of_test (mkConstraints memArgsAbdalla) (fun (c : Cons) =>
    decide (c.angles = [-45, 0, 45, 90] ∧ c.sym = false ∧ c.ipo = true ∧ (c.rule10 && c.rule10Abdalla) = true ∧
      nth c.posAngles 0 = 0 ∧ nth c.posAngles 1 = 45 ∧ 
      (match memStart c c.damTolAttr (trigData 0 (-1)) true (calcMini10 c 20) memStackAbdalla [],
        lampamOptions1 c (trigData 0 (-1)) 20 with
       | .ok (st, _), .ok lo => decide (argMin (objOptions (trigData 0 (-1)) lo st.lam) = 1 ∧
          argMin ((objOptions (trigData 0 (-1)) lo st.lam).set 5 (10 ^ 10)) = 1 ∧
          (objOptions (trigData 0 (-1)) lo st.lam).getD 1 0 + 1 / 10 ^ 20 < st.obj ∧ st.obj > 1 / 10 ^ 10 ∧
          lo.length = 3 ∧ hasCouple st.idx 0 1 1 = true ∧ lamAfter lo st.lam 1 0 = -1 / 10 ∧
          lamAfter lo st.lam 1 1 = -4 / 5)
       | _, _ => false) = true)) (by decide +kernel)
  obtain ⟨h1, h2, h3, h4, h6, h7, h5⟩ := of_decide_eq_true ht
  have A := angleSet_of _ c hc
  have r0 : rowOf c 0 = .ok 1 := by rw [rowOf_iff A, h1]; left; rfl
  have r45 : rowOf c 45 = .ok 2 := by rw [rowOf_iff A, h1]; left; rfl
  have r45m : rowOf c (-45) = .ok 0 := by rw [rowOf_iff A, h1]; left; rfl
  refine ⟨c, hc, ?_, ?_⟩
  · refine ⟨?_, by decide, ?_, by simp, (fun h => by rw [h2] at h; cases h), ?_⟩
    · rw [h1]; exact trigData_trig _ _
    · rw [h1]; decide
    · rw [h2]; decide +kernel
  · intro imported fuel
    split at h5
    · rename_i st ind lo hst hlo
      obtain ⟨g1, g2, g3, g4, g5, g6, g7, g8⟩ := of_decide_eq_true h5
      have hd := hdist _ g7 g8
      generalize hopts : objOptions (trigData 0 (-1)) lo st.lam = opts at *
      have hlen : opts.length = 9 := by
        rw [← hopts]
        unfold objOptions
        simp [g5]
      have s1 := memStepTwo_stuck dist c ind lo st opts g1 g5 h6 h7 r0 r45 r45m g6 hd
      have s2 := memStepTwo_stuck dist c ind lo st (opts.set 5 (10 ^ 10)) g2 g5 h6 h7 r0 r45 r45m g6 hd
      rw [List.set_set] at s2
      have g3' : (opts.set 5 (10 ^ 10)).getD 1 0 = opts.getD 1 0 := by
        rw [List.getD_eq_getElem?_getD, List.getD_eq_getElem?_getD, List.getElem?_set_ne (by omega)]
      have loop : ∀ f, memLoop (trigData 0 (-1)) lo (memStepTwo true dist c ind lo) f st (opts.set 5 (10 ^ 10)) = none := by
        intro f
        induction f with
        | zero => rfl
        | succ f ih =>
          unfold memLoop
          rw [if_pos ⟨by rw [g2, g3']; exact g3, g4⟩, s2]
          exact ih
      have loop0 : ∀ f, memLoop (trigData 0 (-1)) lo (memStepTwo true dist c ind lo) f st opts = none := by
        intro f
        cases f with
        | zero => rfl
        | succ f =>
          unfold memLoop
          rw [if_pos ⟨by rw [g1]; exact g3, g4⟩, s1]
          exact loop f
      have hoff : ¬ ((true : Bool) = false ∨ memNoCoeffs (trigData 0 (-1)) = true) := by decide +kernel
      have hl20 : memStackAbdalla.length = 20 := rfl
      unfold repairMembrane repairMembrane1 memTwo
      rw [if_neg hoff]
      dsimp only
      rw [if_pos h3, h4, hst]
      dsimp only
      rw [if_neg (by simp), hl20, hlo]
      dsimp only
      rw [hopts, loop0 fuel]
    · exact absurd h5 (by decide)

/-- The distances of the theorem above exist, and are positive there. -/
example : ∃ dist : (Nat → ℚ) → ℚ, ∀ lam, lam 0 = -1 / 10 → lam 1 = -4 / 5 → dist lam > 1 / 10 ^ 10 :=
  ⟨fun _ => 1, fun _ _ _ => by norm_num⟩

/-- A case of the Abdalla rule without balance: the refinement makes changes. -/
example : ∃ c out, mkConstraints { rule10 := true, rule10Abdalla := true, percentAbdalla := 10 } = .ok c ∧
    (c.rule10 && c.rule10Abdalla) = true ∧ c.ipo = false ∧
    MemInput c (trigData 0 (-1)) trig4 memStackAbdalla [] ∧
    repairMembrane false true (fun _ => 0) c c.damTolAttr (trigData 0 (-1)) (calcMini10 c 20) 100
      memStackAbdalla [] = some (.ok out) ∧ 2 ≤ out.length := by
  obtain ⟨c, hc, ht⟩ := ok_of_test (mkConstraints { rule10 := true, rule10Abdalla := true, percentAbdalla := 10 })
    (fun (c : Cons) =>
    decide (c.angles = [-45, 0, 45, 90] ∧ c.sym = false ∧ c.ipo = false ∧ (c.rule10 && c.rule10Abdalla) = true ∧
      (match repairMembrane false true (fun _ => 0) c c.damTolAttr (trigData 0 (-1)) (calcMini10 c 20) 100
        memStackAbdalla [] with
       | some (.ok out) => decide (2 ≤ out.length)
       | _ => false) = true)) (by decide +kernel)
  obtain ⟨h1, h2, h3, h4, h5⟩ := of_decide_eq_true ht
  split at h5
  · rename_i out hout
    replace h5 := of_decide_eq_true h5
    refine ⟨c, out, hc, h4, h3, ?_, hout, h5⟩
    refine ⟨?_, by decide, ?_, by simp, (fun h => by rw [h2] at h; cases h), ?_⟩
    · rw [h1]; exact trigData_trig _ _
    · rw [h1]; decide
    · rw [h2]; decide +kernel
  · exact absurd h5 (by decide)

end Bella
