import Verif.Props.OnePdl
import Verif.Props.RepairMpFailure
/-
C62: what the optimisation with one layout does when no repair succeeds.
-/
namespace Bella

/-- The search of the ply angles of three panels of 8, 12 and 14 plies. -/
def failProblem (c : Cons) : Problem ℚ where
  c := c
  rule := 0
  nPanels := 3
  indices := [0, 1, 2, 3, 4, 5, 6]
  pdl := failLayout
  thick := 2
  hasMiddle := false
  contrib := fun ip a l => (a : ℚ) * (l + 1) + ip
  objPanels := fun _ l => .ok l
  objMp := fun l => .ok (|l.sum - 200| / 100)
  localLimit := 1
  localLimitFinal := 1
  globalLimit := 1
  globalLimitFinal := 1

/-- The repairs and the objective after the search, with the coefficient `k` for the penalties. -/
def failSetup (k : ℚ) (c : Cons) (r : Reduced) : OneSetup where
  R := ssSetup c false false
  ipoOk := fun _ => true
  S := { mpSetup c r [[0, 0, 0, 90], [0], [0]] with panelWeights := [1 / 2, 1 / 4, 1 / 4] }
  coeffs :=
    { cDiso := k, cContig := k, cBal := k, c10 := k, cOopo := 0, nModes := 1, cSpacing := 0 }
  weights := [0, 1, 2].map (fun _ => List.replicate 8 1)

set_option synthInstance.maxHeartbeats 200000 in
set_option synthInstance.maxSize 1000 in
/-- The test of the example. -/
def failTest (c : Cons) : Bool := match failStrip with
    | .error _ => false
    | .ok r => decide (ContigCons c ∧ c.angles = [-45, 0, 45, 90] ∧ c.sym = true ∧ c.covering = false ∧
      r.nPlies = [8, 12, 14] ∧ r.indRef = 1 ∧ c.rule10 = true ∧
      ((⌈(calcMini10 c 12).m0⌉ + ⌈(calcMini10 c 12).m90⌉ +
        max ((calcMini10 c 12).m45 + (calcMini10 c 12).m135) (calcMini10 c 12).m45_135 +
        (if c.sym then 2 else 4) * (if c.damTol = true ∧ c.damTolAttr.twoPlies = true then 2 else 1) : Int) ≤
        Spec.designPlies c.sym 12)) &&
      (match optimiserOnePdl (failProblem c) (failSetup 1 c r) false 3 14 with
      | some (.error e) => decide (e = .exc "\nObjective function value not matching the stacking sequences.")
      | _ => false) &&
      match optimiserOnePdl (failProblem c) (failSetup 0 c r) false 3 14 with
      | some (.ok (some x)) => decide (x.obj = failObj ∧ x.pen10 = [3 / 140, 0, 0] ∧
        x.ss = [[45, 0, 0, 0, 0, -45, 90, 90, -45, 0, 0, 0, 0, 45], [45, 0, 0, 0, -45, 90, 90, -45, 0, 0, 0, 45],
          [45, 0, -45, 90, 90, -45, 0, 45]] ∧
        x.sst[2]? = some [45, 0, 0, -1, -1, -1, 90, 90, -1, -1, -1, 0, 0, 45])
      | _ => false

theorem failTest_ok : ∃ c, mkConstraints mpArgs15 = .ok c ∧ failTest c = true :=
  ok_of_test (mkConstraints mpArgs15) failTest (by decide +kernel)

/-- The two runs. -/
theorem fail_run : ∃ c r, (∀ k, OneCase mpArgs15 (failProblem c) (failSetup k c r) trig4 [14, 12, 8] 14) ∧
    optimiserOnePdl (failProblem c) (failSetup 1 c r) false [14, 12, 8].length 14 =
      some (.error (.exc "\nObjective function value not matching the stacking sequences.")) ∧
    ∃ x, optimiserOnePdl (failProblem c) (failSetup 0 c r) false [14, 12, 8].length 14 = some (.ok (some x)) ∧
      x.obj = failObj ∧ x.pen10 = [3 / 140, 0, 0] ∧
      x.ss = [[45, 0, 0, 0, 0, -45, 90, 90, -45, 0, 0, 0, 0, 45], [45, 0, 0, 0, -45, 90, 90, -45, 0, 0, 0, 45],
        [45, 0, -45, 90, 90, -45, 0, 45]] ∧
      x.sst[2]? = some [45, 0, 0, -1, -1, -1, 90, 90, -1, -1, -1, 0, 0, 45] := by
  obtain ⟨c, hc, ht⟩ := failTest_ok
  unfold failTest at ht
  split at ht
  · cases ht
  · rename_i r hr
    rw [Bool.and_eq_true, Bool.and_eq_true] at ht
    obtain ⟨⟨h1, h2⟩, h3⟩ := ht
    obtain ⟨t1, t2, t3, t4, t5, t6, t7, t8⟩ := of_decide_eq_true h1
    split at h2
    · rename_i e he
      have h2 := of_decide_eq_true h2
      subst h2
      split at h3
      · rename_i x hx
        refine ⟨c, r, fun k => ?_, he, x, hx, of_decide_eq_true h3⟩
        exact oneCase_of mpArgs15 c r _ _ [14, 12, 8] [8, 12, 14] 14 12 12 _ _ hc rfl rfl ⟨rfl, rfl⟩ (by
          intro o q h
          have h := Except.ok.inj h
          rw [← h]
          have : (0 : ℚ) ≤ |o.sum - 200| / 100 := by positivity
          linarith) hr t1 t2 t3 t4 t5 (by rw [t6]; rfl) (by decide) rfl rfl
          (by show ∀ row ∈ failLayout, _; decide) rfl (by show failLayout.map _ = _; decide)
          (by show ∀ row ∈ failLayout, _; decide) (by decide) t8
      · cases h3
    · cases h2

/-- C62 (violated): when no repair succeeds and the penalties have coefficients, the optimisation ends with an exception about the
objective of the stacking sequences instead of reporting that there is no feasible design. -/
theorem C62_failure_exception_violation : ∃ (a : ConsArgs) (P : Problem ℚ) (O : OneSetup) (cs : Int → Nat → ℚ)
    (plies : List Nat) (w : Nat), OneCase a P O cs plies w ∧ O.S.panelWeights.sum = 1 ∧
    optimiserOnePdl P O false plies.length w =
      some (.error (.exc "\nObjective function value not matching the stacking sequences.")) := by
  obtain ⟨c, r, M, h, _⟩ := fail_run
  exact ⟨_, _, _, _, _, _, M 1, by show ([1 / 2, 1 / 4, 1 / 4] : List ℚ).sum = 1; norm_num, h⟩

/-- C62 (violated): when no repair succeeds and the coefficients of the penalties are zero (their default), a design with the
objective 1e10 is returned: it does not meet the 10% rule and its laminates are not those of its table. -/
theorem C62_failure_returned_violation : ∃ (a : ConsArgs) (P : Problem ℚ) (O : OneSetup) (cs : Int → Nat → ℚ)
    (plies : List Nat) (w : Nat), OneCase a P O cs plies w ∧ O.S.panelWeights.sum = 1 ∧
    ∃ res, optimiserOnePdl P O false plies.length w = some (.ok (some res)) ∧ res.obj = failObj ∧
      (∃ (i : Nat) (q : ℚ), res.pen10[i]? = some q ∧ 0 < q) ∧
      ∃ (i : Nat) (s row : Stack), res.ss[i]? = some s ∧ res.sst[i]? = some row ∧ s ≠ row.filter (fun x => x != -1) := by
  obtain ⟨c, r, M, _, x, hx, h1, h2, h3, h4⟩ := fail_run
  exact ⟨_, _, _, _, _, _, M 0, by show ([1 / 2, 1 / 4, 1 / 4] : List ℚ).sum = 1; norm_num, x, hx, h1,
    ⟨0, _, by rw [h2]; rfl, by norm_num⟩, 2, _, _, by rw [h3]; rfl, h4, by decide⟩

end Bella
