import Verif.Props.RepairMp
/-
C61: a strip whose repair fails in its third step.
-/
namespace Bella

/-- As before, with 15% of the plies in each direction at least. -/
def mpArgs15 : ConsArgs where
  sym := true
  bal := true
  rule10 := true
  percent0 := 15
  percent90 := 15
  percent45 := 15
  percent135 := 15
  diso := true
  deltaAngle := 45
  contig := true
  nContig := 5

/-- Three panels of 8, 12 and 14 plies; the second one is the reference panel. -/
def failLayout : Table := [mpRow 14 [3, 4, 5], mpRow 14 [4], mpRow 14 []]

/-- The laminate of the reference panel. -/
def failRef : Stack := mpSym [0, 45, 0, 0, 0, 90]

/-- The laminate of the thickest panel. -/
def failGuide : Stack := mpSym [0, 45, 0, 0, 0, 0, 90]

/-- The laminates given. -/
def failStacks : List Stack := [mpSym [0, 45, 0, 0], failRef, failGuide]

/-- Their blending strip. -/
def failStrip : Py Reduced := mkReduced [14, 12, 8] true 12 [(0, 1), (1, 2)] [((0, 1), 1), ((1, 2), 1)]

set_option synthInstance.maxHeartbeats 200000 in
set_option synthInstance.maxSize 1000 in
/-- The test of the example. -/
def mpTest2 (c : Cons) : Bool := match failStrip with
    | .error _ => false
    | .ok r => decide (ContigCons c ∧ c.angles = [-45, 0, 45, 90] ∧ c.sym = true ∧ r.nPlies = [8, 12, 14] ∧ r.indRef = 1 ∧
      ((⌈(calcMini10 c failRef.length).m0⌉ + ⌈(calcMini10 c failRef.length).m90⌉ +
        max ((calcMini10 c failRef.length).m45 + (calcMini10 c failRef.length).m135) (calcMini10 c failRef.length).m45_135 +
        (if c.sym then 2 else 4) * (if c.damTol = true ∧ c.damTolAttr.twoPlies = true then 2 else 1) : Int) ≤
        Spec.designPlies c.sym failRef.length)) &&
      match repairMp (ssSetup c false false) (fun _ => true) (mpSetup c r [[0, 0, 0, 90], [0], [0]]) failStacks failLayout failGuide.length with
      | some (.ok x) => decide (x.success = false ∧ x.step = 3 ∧ x.ss ≠ x.sst.map (fun row => row.filter (fun x => x != -1)))
      | _ => false

theorem mpTest2_ok : ∃ c, mkConstraints mpArgs15 = .ok c ∧ mpTest2 c = true :=
  ok_of_test (mkConstraints mpArgs15) mpTest2 (by decide +kernel)

/-- C61 (violated): when the third step fails, the laminates returned are those of the second step but the table is built with
the initial layout: the laminates are not those of the table. -/
theorem C61_failed_tables_violation : ∃ a P cs S ss pdl guide ssRef rowRef,
    MpCase a P cs S ss pdl guide ssRef rowRef ∧
    ∃ r, repairMp P (fun _ => true) S ss pdl guide.length = some (.ok r) ∧ r.success = false ∧ r.step = 3 ∧
      r.ss ≠ r.sst.map (fun row => row.filter (fun x => x != -1)) := by
  obtain ⟨c, hc, ht⟩ := mpTest2_ok
  unfold mpTest2 at ht
  split at ht
  · cases ht
  · rename_i r hr
    rw [Bool.and_eq_true] at ht
    obtain ⟨h1, h2⟩ := ht
    obtain ⟨t1, t2, t3, t4, t5, t9⟩ := of_decide_eq_true h1
    split at h2
    · rename_i x hx
      refine ⟨_, _, _, _, _, _, _, _, _, mpCase_of _ _ _ c r _ _ _ _ _ _ _ _ _ (mpRow 14 [4]) hr t2 t3
        (ssCase_of mpArgs15 false false c hc failRef t1 t2 (by decide) (by decide) (by unfold Spec.Symmetric; decide +kernel) t9)
        ?_ (by decide) (by rw [t4]; rfl) (by rw [t4]; rfl) (by rw [t4, t5]; rfl) (by decide +kernel), x, hx, of_decide_eq_true h2⟩
      rw [t5]
      exact ⟨rfl, rfl, by decide, by decide, by decide, rfl, rfl, by decide⟩
    · cases h2

end Bella
