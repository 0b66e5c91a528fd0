import Verif.Props.SuccessRates
import Verif.Props.OnePdlFailure
import Verif.Props.ReportExample
/-
C85: optimisations that meet the conditions of the theorems on the counters.
-/
namespace Bella

/-- The search of three panels of 6, 10 and 12 plies with twelve nodes. -/
def ratesProblem (c : Cons) : Problem ℚ :=
  { oneProblem 1200 c with localLimit := 4, localLimitFinal := 4, globalLimit := 12, globalLimitFinal := 12 }

/-- The search of three panels of 8, 12 and 14 plies with six nodes. -/
def ratesFail (c : Cons) : Problem ℚ :=
  { failProblem c with localLimit := 4, localLimitFinal := 4, globalLimit := 6, globalLimitFinal := 6 }

/-- The test of the first example. -/
def ratesTest (c : Cons) : Bool := match repStrip with
  | .error _ => false
  | .ok r => match onePdlCounters (ratesProblem c) (repOne c r) true 3 12 with
    | some (.ok (some k)) => decide (r.nPlies ≠ [] ∧ k = ⟨12, 12, 11, 11, 6, 155⟩)
    | _ => false

/-- The test of the second example. -/
def ratesFailTest (c : Cons) : Bool := match failStrip with
  | .error _ => false
  | .ok r => match onePdlCounters (ratesFail c) (failSetup 0 c r) false 3 14 with
    | some (.ok (some k)) => decide (r.nPlies ≠ [] ∧ k = ⟨6, 6, 5, 0, 0, 100⟩)
    | _ => false

/-- C85: the hypotheses of the theorems are met: an optimisation with twelve designs, eleven of them repaired, six different ones,
and one with six designs none of which is repaired. -/
theorem C85_example : (∃ (c : Cons) (r : Reduced), mkConstraints repArgs = .ok c ∧ repStrip = .ok r ∧ r.nPlies ≠ [] ∧
      onePdlCounters (ratesProblem c) (repOne c r) true 3 12 = some (.ok (some ⟨12, 12, 11, 11, 6, 155⟩))) ∧
    ∃ (c : Cons) (r : Reduced), mkConstraints mpArgs15 = .ok c ∧ failStrip = .ok r ∧ r.nPlies ≠ [] ∧
      onePdlCounters (ratesFail c) (failSetup 0 c r) false 3 14 = some (.ok (some ⟨6, 6, 5, 0, 0, 100⟩)) := by
  constructor
  · obtain ⟨c, hc, ht⟩ := ok_of_test (mkConstraints repArgs) ratesTest (by decide +kernel)
    unfold ratesTest at ht
    split at ht
    · cases ht
    · rename_i r hr
      split at ht
      · rename_i k hk
        obtain ⟨h1, rfl⟩ := of_decide_eq_true ht
        exact ⟨c, r, hc, hr, h1, hk⟩
      · cases ht
  · obtain ⟨c, hc, ht⟩ := ok_of_test (mkConstraints mpArgs15) ratesFailTest (by decide +kernel)
    unfold ratesFailTest at ht
    split at ht
    · cases ht
    · rename_i r hr
      split at ht
      · rename_i k hk
        obtain ⟨h1, rfl⟩ := of_decide_eq_true ht
        exact ⟨c, r, hc, hr, h1, hk⟩
      · cases ht

/-- The other hypotheses of the theorem on the candidates: a search with objectives within the sentinels. -/
theorem C85_evaluations_example : ∃ (P : Problem ℚ) (t : Tabs ℚ) (n : Nat), (∀ o q, P.objMp o = .ok q → -6666 < q ∧ q < 6666) ∧
    P.indices ≠ [] ∧ P.indices.Nodup ∧ beamSearch P = .ok t ∧ searchCalls P = .ok n ∧ P.indices.length = 7 ∧ n = 100 := by
  let bounded (c : Cons) : Problem ℚ := { ratesFail c with objMp := fun l => .ok (if |l.sum| < 6000 then l.sum else 6000) }
  let test (c : Cons) : Bool := match beamSearch (bounded c), searchCalls (bounded c) with
    | .ok _, .ok n => decide (n = 100)
    | _, _ => false
  obtain ⟨c, hc, ht⟩ := ok_of_test (mkConstraints mpArgs15) test (by decide +kernel)
  dsimp only [test] at ht
  split at ht
  · rename_i t n h1 h2
    refine ⟨bounded c, t, n, ?_, by show ([0, 1, 2, 3, 4, 5, 6] : List Nat) ≠ []; decide,
      by show ([0, 1, 2, 3, 4, 5, 6] : List Nat).Nodup; decide, h1, h2, rfl, of_decide_eq_true ht⟩
    intro o q h
    have h := Except.ok.inj h
    rw [← h]
    split
    · rename_i hlt
      rw [abs_lt] at hlt
      constructor <;> linarith [hlt.1, hlt.2]
    · norm_num
  · cases ht

end Bella
