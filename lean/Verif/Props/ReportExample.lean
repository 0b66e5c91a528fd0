import Verif.Props.Report
import Verif.Props.OnePdlViolations
import Verif.Props.OptimiserExample
/-
C72: a complete run with two initial layouts, the second of which gives the better design.
-/
namespace Bella

/-- The 10% rule with one ply in ten of each direction. -/
def repArgs : ConsArgs where
  sym := true
  bal := true
  rule10 := true
  percent0 := 10
  percent90 := 10
  percent45 := 0
  percent135 := 0
  diso := true
  deltaAngle := 45
  contig := true
  nContig := 4

/-- Twelve lamination parameters: those of the membrane; the others zero. -/
def repLampam (s : Stack) : List ℚ :=
  [((s.count 0 : ℚ) - s.count 90) / s.length, ((s.count 0 : ℚ) + s.count 90 - s.count 45 - s.count (-45)) / s.length,
   ((s.count 45 : ℚ) - s.count (-45)) / s.length, 0, 0, 0, 0, 0, 0, 0, 0, 0]

/-- The targets of the panels. -/
def repTargets : List (List ℚ) :=
  [[1 / 2, 1 / 2, 0, 0, 0, 0, 0, 0, 0, 0, 0, 0], [1 / 2, 1 / 2, 0, 0, 0, 0, 0, 0, 0, 0, 0, 0], [1, 1, 0, 0, 0, 0, 0, 0, 0, 0, 0, 0]]

/-- The strip; the thickest panel is the reference panel. -/
def repStrip : Py Reduced := mkReduced [12, 10, 6] true 12 [(0, 1), (1, 2)] [((0, 1), 1), ((1, 2), 1)]

/-- The repairs and the objective after the search. -/
def repOne (c : Cons) (r : Reduced) : OneSetup where
  R := ssSetup c false false
  ipoOk := fun _ => true
  S := { mpSetup c r [] with lampam := repLampam, targets := repTargets, panelWeights := [1, 1, 1], weights := repTargets.map (fun _ => List.replicate 12 1) }
  coeffs :=
    { cDiso := 1, cContig := 1, cBal := 1, c10 := 1, cOopo := 0, nModes := 1, cSpacing := 0 }
  weights := repTargets.map (fun _ => List.replicate 12 1)

/-- Three panels of 12, 10 and 6 plies, one group of plies, two initial layouts. -/
def repSetup (c : Cons) (r : Reduced) : BellaSetup ℚ where
  problem := fun t =>
    { oneProblem 1200 c with
      pdl := t
      contrib := fun ip a k => (a : ℚ) * ((t.getD ip []).take k).countP (fun (x : Int) => x != -1) + ip }
  O := repOne c r
  plies := [12, 10, 6]
  gmin := 4
  gmax := 6
  nIni := 2
  lateGroup := false
  lateAll := false
  save := false
  fuel := 3

/-- The random choices for the two layouts. -/
def repDraws : List (List (List (Draw × Bool)) × Bool) :=
  [([[(⟨[1, 3, 2], [[0, 1], [0]]⟩, false)]], false), ([[(⟨[1, 4, 3], [[0, 1], [0]]⟩, false)]], false)]

set_option synthInstance.maxHeartbeats 200000 in
set_option synthInstance.maxSize 1000 in
/-- The test of the example. -/
def repTest (c : Cons) : Bool := match repStrip with
    | .error _ => false
    | .ok r => decide (ContigCons c ∧ c.angles = [-45, 0, 45, 90] ∧ c.sym = true ∧ c.covering = false ∧ c.nCovering = 0 ∧
      r.nPlies = [6, 10, 12] ∧ r.indRef = 2 ∧
      ((⌈(calcMini10 c 12).m0⌉ + ⌈(calcMini10 c 12).m90⌉ +
        max ((calcMini10 c 12).m45 + (calcMini10 c 12).m135) (calcMini10 c 12).m45_135 +
        (if c.sym then 2 else 4) * (if c.damTol = true ∧ c.damTolAttr.twoPlies = true then 2 else 1) : Int) ≤
        Spec.designPlies c.sym 12)) &&
      (match divideStrip (repSetup c r).O.S.c.sym (repSetup c r).nMax (repSetup c r).O.S.c.nCovering (repSetup c r).gmin
          (repSetup c r).gmax (repSetup c r).O.S.r.nPlies (repSetup c r).fuel with
      | some (.ok (sizes, panels)) => match (repSetup c r).stripData sizes panels with
        | .ok s => decide (s.sizes = [6] ∧ s.drops = [[3, 1, 0]])
        | .error _ => false
      | _ => false) &&
      (match bellaRun (repSetup c r) repTargets none repDraws with
      | some (.ok x) => decide (x.sheets.map (fun (y : Report) => y.obj) = [some (718 / 225), some (2068 / 675)] ∧
          x.best.obj = some (718 / 225)) && (match x.design with
          | some y => decide (y.obj = 2068 / 675)
          | none => false)
      | _ => false)

theorem repTest_ok : ∃ c, mkConstraints repArgs = .ok c ∧ repTest c = true :=
  ok_of_test (mkConstraints repArgs) repTest (by decide +kernel)

/-- A complete run: the hypotheses of the theorems C72 hold; the second layout gives the best design, the sheet "Best Result" shows the
objective of the first one. -/
theorem C72_run_example : ∃ (B : BellaSetup ℚ) (sched : List (List (List (Draw × Bool)) × Bool)) (out : BellaOutput) (res : OneResult),
    BellaCase repArgs B trig4 ∧ PossibleDraws B sched ∧ B.save = false ∧ B.plies = [12, 10, 6] ∧
    B.O.S.targets.length = B.O.S.r.nPlies.length ∧
    bellaRun B repTargets none sched = some (.ok out) ∧ out.design = some res ∧ res.obj ≠ failObj ∧
    res.obj = 2068 / 675 ∧ out.sheets.map (fun (y : Report) => y.obj) = [some (718 / 225), some (2068 / 675)] ∧
    out.best.obj = some (718 / 225) := by
  obtain ⟨c, hc, ht⟩ := repTest_ok
  unfold repTest at ht
  split at ht
  · cases ht
  · rename_i r hr
    rw [Bool.and_eq_true, Bool.and_eq_true] at ht
    obtain ⟨⟨h1, h2⟩, h3⟩ := ht
    obtain ⟨t1, t2, t3, t4, t0, t5, t6, t10⟩ := of_decide_eq_true h1
    have M := oneCase_of repArgs c r (oneProblem 1200 c) (repOne c r) [12, 10, 6] [6, 10, 12] 12 12 12 _ _ hc rfl rfl
      ⟨rfl, rfl⟩ (by
        intro o q h
        have h := Except.ok.inj h
        rw [← h]
        have : (0 : ℚ) ≤ |o.sum - 1200| / 100 := by positivity
        linarith) hr t1 t2 t3 t4 t5 (by rw [t6]; rfl) (by decide) rfl rfl
        (by show ∀ row ∈ mpLayout, _; decide) rfl (by show mpLayout.map _ = _; decide) (by show ∀ row ∈ mpLayout, _; decide)
        (by decide) t10
    split at h3
    · rename_i x hx
      rw [Bool.and_eq_true] at h3
      obtain ⟨u1, u2⟩ := of_decide_eq_true h3.1
      have h4 := h3.2
      split at h4
      · rename_i y hy
        have h4 := of_decide_eq_true h4
        refine ⟨repSetup c r, repDraws, x, y, ?_, ?_, rfl, rfl, ?_, hx, hy, ?_, h4, u1, u2⟩
        · exact {
            cons := hc
            sameR := rfl
            problem := fun t => ⟨rfl, rfl, by show 3 = r.nPlies.length; rw [t5]; rfl⟩
            objBound := fun _ => M.objBound
            reduced := M.reduced
            even := by intro _; show ∀ n ∈ [12, 10, 6], n % 2 = 0; decide
            noMinusOne := M.noMinusOne
            designed := by
              show ∀ n ∈ [12, 10, 6], 2 * c.nCovering < n
              rw [t0]
              decide
            sizes := by show (1 : Int) ≤ 4 ∧ (4 : Int) ≤ 6; decide
            fuel := by show (6 : Int) - 4 + 1 ≤ ((3 : Nat) : Int); decide
            repair := M.repair }
        · intro sizes panels s e1 e2 z hz
          rw [e1] at h2
          dsimp only at h2
          rw [e2] at h2
          obtain ⟨v1, v2⟩ := of_decide_eq_true h2
          have hz : z = ([[(⟨[1, 3, 2], [[0, 1], [0]]⟩, false)]], false) ∨ z = ([[(⟨[1, 4, 3], [[0, 1], [0]]⟩, false)]], false) := by
            simpa [repDraws] using hz
          rcases hz with rfl | rfl
          all_goals
            refine ⟨by rw [v1]; decide, fun k sk n d e3 e4 e5 => ?_⟩
            rw [v1] at e4
            rw [v2] at e5
            match k with
            | 0 =>
              have e3 := (Option.some.inj e3).symm
              have e4 := (Option.some.inj e4).symm
              have e5 := (Option.some.inj e5).symm
              subst e3 e4 e5
              intro z hz
              rw [List.mem_singleton.1 hz]
              refine ⟨3, [1, 0], by decide +kernel, by decide, ?_, rfl, ?_⟩
              · simp [Spec.MayDrop]
              · simp [Spec.RestoreSamples, Spec.IsSample]
            | k + 1 => simp at e3
        · show 3 = r.nPlies.length
          rw [t5]
          rfl
        · rw [h4]
          unfold failObj
          norm_num
      · cases h4
    · cases h3

end Bella
