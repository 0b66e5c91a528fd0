import Verif.Props.OnePdl
import Verif.Props.RepairMpViolations
/-
C62: a run of the optimisation with one layout, and what its result does not meet.
-/
namespace Bella

/-- The search of the ply angles of three panels of 6, 10 and 12 plies: the objective wants the sum of the accumulated
values to be `T`. -/
def oneProblem (T : ℚ) (c : Cons) : Problem ℚ where
  c := c
  rule := 0
  nPanels := 3
  indices := [0, 1, 2, 3, 4, 5]
  pdl := mpLayout
  thick := 2
  hasMiddle := false
  contrib := fun ip a l => (a : ℚ) * (l + 1) + ip
  objPanels := fun _ l => .ok l
  objMp := fun l => .ok (|l.sum - T| / 100)
  localLimit := 2
  localLimitFinal := 2
  globalLimit := 2
  globalLimitFinal := 2

/-- The repairs and the objective after the search. -/
def oneSetup (c : Cons) (r : Reduced) : OneSetup where
  R := ssSetup c false false
  ipoOk := fun _ => true
  S := mpSetup c r mpTargets
  coeffs :=
    { cDiso := 1, cContig := 1, cBal := 1, c10 := 1, cOopo := 0, nModes := 1, cSpacing := 0 }
  weights := mpTargets.map (fun _ => List.replicate 8 1)

set_option synthInstance.maxHeartbeats 200000 in
set_option synthInstance.maxSize 1000 in
/-- The test of the example. -/
def oneTest (c : Cons) : Bool := match mpStrip with
    | .error _ => false
    | .ok r => decide (ContigCons c ∧ c.angles = [-45, 0, 45, 90] ∧ c.sym = true ∧ c.covering = false ∧
      r.nPlies = [6, 10, 12] ∧ r.indRef = 1 ∧ c.diso = true ∧ c.deltaAngle = 45 ∧ c.damTol = false ∧
      ((⌈(calcMini10 c 10).m0⌉ + ⌈(calcMini10 c 10).m90⌉ +
        max ((calcMini10 c 10).m45 + (calcMini10 c 10).m135) (calcMini10 c 10).m45_135 +
        (if c.sym then 2 else 4) * (if c.damTol = true ∧ c.damTolAttr.twoPlies = true then 2 else 1) : Int) ≤
        Spec.designPlies c.sym 10)) &&
      match optimiserOnePdl (oneProblem 1200 c) (oneSetup c r) false 3 12 with
      | some (.ok (some x)) => decide (x.obj < failObj ∧
        x.ss = [[90, -45, 90, 45, 0, -45, -45, 0, 45, 90, -45, 90], [90, 90, 45, 0, -45, -45, 0, 45, 90, 90],
          [90, 90, 0, 0, 90, 90]] ∧ x.penDiso = [0, 0, 1 / 3] ∧ x.pdl = [mpRow 12 [], mpRow 12 [3], mpRow 12 [1, 4, 3]] ∧
        (x.sst.map (fun row => row.map (fun x => decide (x = -1))))[2]? ≠
          some ((mpRow 12 [1, 4, 3]).map (fun x => decide (x = -1))))
      | _ => false

theorem oneTest_ok : ∃ c, mkConstraints mpArgs = .ok c ∧ oneTest c = true :=
  ok_of_test (mkConstraints mpArgs) oneTest (by decide +kernel)

/-- A run that returns a design. -/
theorem one_run : ∃ c r, OneCase mpArgs (oneProblem 1200 c) (oneSetup c r) trig4 [12, 10, 6] 12 ∧
    c.diso = true ∧ c.deltaAngle = 45 ∧ c.damTol = false ∧ r.nPlies = [6, 10, 12] ∧
    (oneSetup c r).S.targets.length = r.nPlies.length ∧
    ∃ x, optimiserOnePdl (oneProblem 1200 c) (oneSetup c r) false [12, 10, 6].length 12 = some (.ok (some x)) ∧
      x.obj < failObj ∧
      x.ss = [[90, -45, 90, 45, 0, -45, -45, 0, 45, 90, -45, 90], [90, 90, 45, 0, -45, -45, 0, 45, 90, 90],
        [90, 90, 0, 0, 90, 90]] ∧ x.penDiso = [0, 0, 1 / 3] ∧ x.pdl = [mpRow 12 [], mpRow 12 [3], mpRow 12 [1, 4, 3]] ∧
      (x.sst.map (fun row => row.map (fun x => decide (x = -1))))[2]? ≠
        some ((mpRow 12 [1, 4, 3]).map (fun x => decide (x = -1))) := by
  obtain ⟨c, hc, ht⟩ := oneTest_ok
  unfold oneTest at ht
  split at ht
  · cases ht
  · rename_i r hr
    rw [Bool.and_eq_true] at ht
    obtain ⟨h1, h2⟩ := ht
    obtain ⟨t1, t2, t3, t4, t5, t6, t7, t8, t9, t10⟩ := of_decide_eq_true h1
    split at h2
    · rename_i x hx
      refine ⟨c, r, ?_, t7, t8, t9, t5, by rw [t5]; rfl, x, hx, of_decide_eq_true h2⟩
      exact oneCase_of mpArgs c r _ _ [12, 10, 6] [6, 10, 12] 12 10 10 _ _ hc rfl rfl ⟨rfl, rfl⟩ (by
        intro o q h
        have h := Except.ok.inj h
        rw [← h]
        have : (0 : ℚ) ≤ |o.sum - 1200| / 100 := by positivity
        linarith) hr t1 t2 t3 t4 t5 (by rw [t6]; rfl) (by decide) rfl rfl
        (by show ∀ row ∈ mpLayout, _; decide) rfl (by show mpLayout.map _ = _; decide) (by show ∀ row ∈ mpLayout, _; decide)
        (by decide) t10
    · cases h2

/-- C62 (violated): the ply drop layout returned with a design is not the one of its stacking sequence table. -/
theorem C62_returned_layout_violation : ∃ (a : ConsArgs) (P : Problem ℚ) (O : OneSetup) (cs : Int → Nat → ℚ) (plies : List Nat)
    (w : Nat), OneCase a P O cs plies w ∧
    ∃ res, optimiserOnePdl P O false plies.length w = some (.ok (some res)) ∧ res.obj ≠ failObj ∧
      ∃ (i j : Nat) (row d : Stack), res.sst[i]? = some row ∧ res.pdl[i]? = some d ∧
        ¬ (row[j]? = some (-1) ↔ d[j]? = some (-1)) := by
  obtain ⟨c, r, M, _, _, _, _, _, x, hx, ho, _, _, hp, hd⟩ := one_run
  refine ⟨_, _, _, _, _, _, M, x, hx, ho.ne, ?_⟩
  obtain ⟨_, _, k, _⟩ := C62_laminates _ _ _ _ _ _ M x hx ho.ne
  obtain ⟨row, s, q1, _, q3, _⟩ := k 2 6 rfl
  by_contra hcon
  apply hd
  rw [List.getElem?_map, q1, Option.map_some]
  congr 1
  apply List.ext_getElem?
  intro j
  rw [List.getElem?_map, List.getElem?_map]
  have hw : (mpRow 12 [1, 4, 3]).length = 12 := by decide
  by_cases hj : j < 12
  · have f1 : row[j]? = some (row[j]'(by omega)) := List.getElem?_eq_getElem _
    have f2 : (mpRow 12 [1, 4, 3])[j]? = some ((mpRow 12 [1, 4, 3])[j]'(by omega)) := List.getElem?_eq_getElem _
    rw [f1, f2, Option.map_some, Option.map_some]
    congr 1
    rw [decide_eq_decide]
    by_contra hcc
    apply hcon
    refine ⟨2, j, _, _, q1, by rw [hp]; rfl, ?_⟩
    rw [f1, f2, Option.some.injEq, Option.some.injEq]
    exact hcc
  · rw [List.getElem?_eq_none (by omega), List.getElem?_eq_none (by omega)]

/-- C62 (violated): with the disorientation rule switched on, the laminate returned for a panel thinner than the reference
panel can break it; the result then carries a penalty for this panel. -/
theorem C62_disorientation_violation : ∃ (a : ConsArgs) (P : Problem ℚ) (O : OneSetup) (cs : Int → Nat → ℚ)
    (plies : List Nat) (w : Nat), OneCase a P O cs plies w ∧ P.c.diso = true ∧ P.c.damTol = false ∧
    ∃ res, optimiserOnePdl P O false plies.length w = some (.ok (some res)) ∧ res.obj ≠ failObj ∧
      ∃ (i : Nat) (s : Stack) (q : ℚ), res.ss[i]? = some s ∧ ¬ Spec.DisoOK P.c.deltaAngle s ∧ res.penDiso[i]? = some q ∧ 0 < q := by
  obtain ⟨c, r, M, t1, t2, t3, _, _, x, hx, ho, hs, hq, _, _⟩ := one_run
  refine ⟨_, _, _, _, _, _, M, t1, t3, x, hx, ho.ne, 2, _, _, by rw [hs]; rfl, ?_, by rw [hq]; rfl, by norm_num⟩
  show ¬ Spec.DisoOK c.deltaAngle _
  rw [t2]
  intro hd
  obtain ⟨k, hk⟩ := hd 1 90 0 rfl rfl
  rw [abs_le] at hk
  omega

/-- The hypotheses of `C62_returns`, `C62_reported_values` and `C62_reported_objective` are met by this run. -/
example : ∃ (P : Problem ℚ) (O : OneSetup), OneCase mpArgs P O trig4 [12, 10, 6] 12 ∧
    O.S.targets.length = O.S.r.nPlies.length ∧ O.S.panelWeights.length = O.S.r.nPlies.length ∧
    (∀ s : Stack, 4 ≤ (O.S.lampam s).length ∧ (P.c.oopo = true → 12 ≤ (O.S.lampam s).length)) ∧
    (∃ q, stripSpacing O.S.c O.S.r (P.pdl.map some) = .ok q) ∧
    ∃ t ds, beamSearch P = .ok t ∧ List.Forall₂ (fun (x : List Stack × List Stack) (d : Design) =>
      repairNode O P.pdl 12 x.1 x.2 = some (.ok d)) (t.bots.zip t.tops) ds ∧ ∃ d ∈ ds, d.obj < failObj := by
  obtain ⟨c, r, M, _, _, _, h5, h6, x, hx, ho, _⟩ := one_run
  have hoff : c.oopo = false ∧ c.pdlSpacing = false := by
    obtain ⟨p, _, _, _, _, _, _, _, _, _, _, e⟩ := mkConstraints_inv _ _ M.cons
    change c = _ at e
    rw [e]
    exact ⟨rfl, rfl⟩
  obtain ⟨t, ds, g1, g2, ⟨d, g3, g4⟩, g5⟩ := C62_minimal _ _ _ _ _ hx
  refine ⟨_, _, M, h6, by show 3 = r.nPlies.length; rw [h5]; rfl, fun s => ⟨by show 4 ≤ (stripLampam s).length; simp [stripLampam], fun h => ?_⟩,
    ⟨0, ?_⟩, t, ds, g1, g2, d, g3, ?_⟩
  · change c.oopo = true at h
    rw [hoff.1] at h
    cases h
  · unfold stripSpacing
    rw [if_neg]
    show ¬ c.pdlSpacing = true
    rw [hoff.2]
    decide
  · rw [g4]
    exact ho

end Bella
