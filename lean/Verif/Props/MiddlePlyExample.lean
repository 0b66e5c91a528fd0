import Verif.Props.MiddlePly
import Verif.Props.OptimiserExample
/-
C42, C64: a structure with three panels of 13, 11 and 7 plies.
-/
namespace Bella

/-- Three panels of 13, 11 and 7 plies, one group of plies, one initial layout. -/
def oddSetup (c : Cons) (r : Reduced) : BellaSetup ℚ := { bellaSetup c r with plies := [13, 11, 7] }

/-- The blending strip. -/
def oddStrip : Py Reduced := mkReduced [13, 11, 7] true 11 [(0, 1), (1, 2)] [((0, 1), 1), ((1, 2), 1)]

set_option synthInstance.maxHeartbeats 200000 in
set_option synthInstance.maxSize 1000 in
/-- The test of the example. -/
def oddTest (c : Cons) : Bool := match oddStrip with
    | .error _ => false
    | .ok r => decide (c.sym = true ∧ c.nCovering = 0) &&
      (match divideStrip (oddSetup c r).O.S.c.sym (oddSetup c r).nMax (oddSetup c r).O.S.c.nCovering (oddSetup c r).gmin
          (oddSetup c r).gmax (oddSetup c r).O.S.r.nPlies (oddSetup c r).fuel with
      | some (.ok (sizes, panels)) => match (oddSetup c r).stripData sizes panels with
        | .ok s => decide (s.sizes = [6] ∧ s.drops = [[3, 1, 0]])
        | .error _ => false
      | _ => false) &&
      (match bellaOptimiser (oddSetup c r) bellaDraws with
      | some (.error e) => decide (e = .valueError)
      | _ => false)

theorem oddTest_ok : ∃ c, mkConstraints mpArgs = .ok c ∧ oddTest c = true :=
  ok_of_test (mkConstraints mpArgs) oddTest (by decide +kernel)

/-- The hypotheses of the theorem are met, and the run ends with `ValueError`. -/
example : ∃ (B : BellaSetup ℚ) (nRef : Int) (bs : List (Nat × Nat)) (bw : List ((Nat × Nat) × ℚ))
    (sched : List (List (List (Draw × Bool)) × Bool)),
    B.plies = [13, 11, 7] ∧ mkReduced B.plies true nRef bs bw = .ok B.O.S.r ∧ B.O.S.c.sym = true ∧
    (∀ n ∈ B.plies, n % 2 = 1 ∧ 2 * B.O.S.c.nCovering + 1 < n) ∧
    (1 ≤ B.gmin ∧ B.gmin ≤ ((B.nMax / 2 - B.O.S.c.nCovering : Nat) : Int)) ∧
    ((B.nMax / 2 - B.O.S.c.nCovering : Nat) : Int) ≤ B.gmax ∧ B.gmax - B.gmin + 1 ≤ B.fuel ∧ 1 ≤ B.nIni ∧
    PossibleDraws B sched ∧ bellaOptimiser B sched = some (.error .valueError) := by
  obtain ⟨c, hc, ht⟩ := oddTest_ok
  unfold oddTest at ht
  split at ht
  · cases ht
  · rename_i r hr
    rw [Bool.and_eq_true, Bool.and_eq_true] at ht
    obtain ⟨⟨h1, h2⟩, h3⟩ := ht
    obtain ⟨t1, t2⟩ := of_decide_eq_true h1
    have t2' : (oddSetup c r).O.S.c.nCovering = 0 := t2
    have hM : (oddSetup c r).nMax = 13 := rfl
    refine ⟨oddSetup c r, _, _, _, bellaDraws, rfl, hr, t1, ?_, ?_, ?_, ?_, ?_, ?_, ?_⟩
    · rw [t2']; show ∀ n ∈ [13, 11, 7], _; decide
    · rw [t2', hM]; show (1 : Int) ≤ 4 ∧ (4 : Int) ≤ ((13 / 2 - 0 : Nat) : Int); decide
    · rw [t2', hM]; show ((13 / 2 - 0 : Nat) : Int) ≤ (6 : Int); decide
    · show (6 : Int) - 4 + 1 ≤ ((3 : Nat) : Int); decide
    · show 1 ≤ 1; decide
    · intro sizes panels s e1 e2 y hy
      rw [e1] at h2
      dsimp only at h2
      rw [e2] at h2
      obtain ⟨v1, v2⟩ := of_decide_eq_true h2
      rw [List.mem_singleton.1 hy]
      refine ⟨by rw [v1]; decide, fun k sk n d e3 e4 e5 => ?_⟩
      rw [v1] at e4
      rw [v2] at e5
      match k with
      | 0 =>
        have e3 := (Option.some.inj e3).symm
        have e4 := (Option.some.inj e4).symm
        have e5 := (Option.some.inj e5).symm
        subst e3 e4 e5
        intro z hz
        rw [List.mem_singleton.1 hz]
        refine ⟨3, [1, 0], by decide +kernel, by decide, ?_, rfl, ?_⟩
        · simp [Spec.MayDrop]
        · simp [Spec.RestoreSamples, Spec.IsSample]
      | k + 1 => simp at e3
    · split at h3
      · rename_i e he
        rw [he, of_decide_eq_true h3]
      · cases h3

end Bella
