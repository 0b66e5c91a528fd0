import Verif.Props.Optimiser
import Verif.Props.OnePdlViolations
/-
C64: a complete run of the optimisation, which shows that the hypotheses of the theorems can be met.
-/
namespace Bella

/-- Three panels of 12, 10 and 6 plies, one group of plies, one initial layout. -/
def bellaSetup (c : Cons) (r : Reduced) : BellaSetup ℚ where
  problem := fun t => { oneProblem 1200 c with pdl := t }
  O := oneSetup c r
  plies := [12, 10, 6]
  gmin := 4
  gmax := 6
  nIni := 1
  lateGroup := false
  lateAll := false
  save := false
  fuel := 3

/-- The random choices: the plies 1, 4 and 3 are dropped in the thinnest panel, two of them are restored in the next one. -/
def bellaDraws : List (List (List (Draw × Bool)) × Bool) := [([[(⟨[1, 4, 3], [[0, 1], [0]]⟩, false)]], false)]

set_option synthInstance.maxHeartbeats 200000 in
set_option synthInstance.maxSize 1000 in
/-- The test of the example. -/
def bellaTest (c : Cons) : Bool := match mpStrip with
    | .error _ => false
    | .ok r => decide (ContigCons c ∧ c.angles = [-45, 0, 45, 90] ∧ c.sym = true ∧ c.covering = false ∧ c.nCovering = 0 ∧
      r.nPlies = [6, 10, 12] ∧ r.indRef = 1 ∧
      ((⌈(calcMini10 c 10).m0⌉ + ⌈(calcMini10 c 10).m90⌉ +
        max ((calcMini10 c 10).m45 + (calcMini10 c 10).m135) (calcMini10 c 10).m45_135 +
        (if c.sym then 2 else 4) * (if c.damTol = true ∧ c.damTolAttr.twoPlies = true then 2 else 1) : Int) ≤
        Spec.designPlies c.sym 10)) &&
      (match divideStrip (bellaSetup c r).O.S.c.sym (bellaSetup c r).nMax (bellaSetup c r).O.S.c.nCovering (bellaSetup c r).gmin
          (bellaSetup c r).gmax (bellaSetup c r).O.S.r.nPlies (bellaSetup c r).fuel with
      | some (.ok (sizes, panels)) => match (bellaSetup c r).stripData sizes panels with
        | .ok s => decide (s.sizes = [6] ∧ s.drops = [[3, 1, 0]])
        | .error _ => false
      | _ => false) &&
      (match bellaOptimiser (bellaSetup c r) bellaDraws with
      | some (.ok (some x)) => decide (x.obj < failObj ∧
        x.ss = [[90, -45, 90, 45, 0, -45, -45, 0, 45, 90, -45, 90], [90, 90, 45, 0, -45, -45, 0, 45, 90, 90],
          [90, 90, 0, 0, 90, 90]])
      | _ => false)

theorem bellaTest_ok : ∃ c, mkConstraints mpArgs = .ok c ∧ bellaTest c = true :=
  ok_of_test (mkConstraints mpArgs) bellaTest (by decide +kernel)

/-- A run of the whole optimisation that returns a design. -/
theorem bella_example : ∃ (B : BellaSetup ℚ) (sched : List (List (List (Draw × Bool)) × Bool)) (x : OneResult),
    BellaCase mpArgs B trig4 ∧ PossibleDraws B sched ∧ B.save = false ∧ B.plies = [12, 10, 6] ∧
    B.O.R.imported = true ∧ bellaOptimiser B sched = some (.ok (some x)) ∧ x.obj ≠ failObj ∧
    x.ss = [[90, -45, 90, 45, 0, -45, -45, 0, 45, 90, -45, 90], [90, 90, 45, 0, -45, -45, 0, 45, 90, 90],
      [90, 90, 0, 0, 90, 90]] := by
  obtain ⟨c, hc, ht⟩ := bellaTest_ok
  unfold bellaTest at ht
  split at ht
  · cases ht
  · rename_i r hr
    rw [Bool.and_eq_true, Bool.and_eq_true] at ht
    obtain ⟨⟨h1, h2⟩, h3⟩ := ht
    obtain ⟨t1, t2, t3, t4, t0, t5, t6, t10⟩ := of_decide_eq_true h1
    have M := oneCase_of mpArgs c r (oneProblem 1200 c) (oneSetup c r) [12, 10, 6] [6, 10, 12] 12 10 10 _ _ hc rfl rfl
      ⟨rfl, rfl⟩ (by
        intro o q h
        have h := Except.ok.inj h
        rw [← h]
        have : (0 : ℚ) ≤ |o.sum - 1200| / 100 := by positivity
        linarith) hr t1 t2 t3 t4 t5 (by rw [t6]; rfl) (by decide) rfl rfl
        (by show ∀ row ∈ mpLayout, _; decide) rfl (by show mpLayout.map _ = _; decide) (by show ∀ row ∈ mpLayout, _; decide)
        (by decide) t10
    split at h3
    · rename_i x hx
      obtain ⟨u1, u2⟩ := of_decide_eq_true h3
      refine ⟨bellaSetup c r, bellaDraws, x, ?_, ?_, rfl, rfl, rfl, hx, u1.ne, u2⟩
      · exact {
          cons := hc
          sameR := rfl
          problem := fun t => ⟨rfl, rfl, by show 3 = r.nPlies.length; rw [t5]; rfl⟩
          objBound := fun _ => M.objBound
          reduced := M.reduced
          even := by intro _; show ∀ n ∈ [12, 10, 6], n % 2 = 0; decide
          noMinusOne := M.noMinusOne
          designed := by
            show ∀ n ∈ [12, 10, 6], 2 * c.nCovering < n
            rw [t0]
            decide
          sizes := by show (1 : Int) ≤ 4 ∧ (4 : Int) ≤ 6; decide
          fuel := by show (6 : Int) - 4 + 1 ≤ ((3 : Nat) : Int); decide
          repair := M.repair }
      · intro sizes panels s e1 e2 y hy
        rw [e1] at h2
        dsimp only at h2
        rw [e2] at h2
        obtain ⟨v1, v2⟩ := of_decide_eq_true h2
        rw [List.mem_singleton.1 hy]
        refine ⟨by rw [v1]; decide, fun k sk n d e3 e4 e5 => ?_⟩
        rw [v1] at e4
        rw [v2] at e5
        match k with
        | 0 =>
          have e3 := (Option.some.inj e3).symm
          have e4 := (Option.some.inj e4).symm
          have e5 := (Option.some.inj e5).symm
          subst e3 e4 e5
          intro z hz
          rw [List.mem_singleton.1 hz]
          refine ⟨3, [1, 0], by decide +kernel, by decide, ?_, rfl, ?_⟩
          · simp [Spec.MayDrop]
          · simp [Spec.RestoreSamples, Spec.IsSample]
        | k + 1 => simp at e3
    · cases h3

end Bella
