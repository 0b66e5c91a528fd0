import Verif.Props.RepairSs
/-
C59: a laminate repaired with all the steps.
-/
namespace Bella

set_option synthInstance.maxHeartbeats 200000 in
set_option synthInstance.maxSize 1000 in
/-- The laminate is repaired, with and without out-of-plane refinement; with an objective, the call ends with an error. -/
example : ∃ c, mkConstraints (ssArgs false) = .ok c ∧
    RepairCase (ssArgs false) (ssSetup c true true) trig4 ssStack ∧
    RepairCase (ssArgs false) (ssSetup c true false) trig4 ssStack ∧
    repairSs (ssSetup c true true) none ssStack = some (.ok
      ([0, 0, 0, 0, 0, -45, 0, 45, 90, 45, 90, -45, -45, 90, 45, 90, 45, 0, -45, 0, 0, 0, 0, 0], true, none)) ∧
    repairSs (ssSetup c true false) none ssStack = some (.ok
      ([0, 0, 45, 0, 0, 0, 45, 0, -45, 90, 90, -45, -45, 90, 90, -45, 0, 45, 0, 0, 0, 45, 0, 0], true, none)) ∧
    repairSs (ssSetup c true true) (some 0) ssStack = some (.error .typeError) := by
  obtain ⟨c, hc, ht⟩ := ok_of_test (mkConstraints (ssArgs false)) (fun (c : Cons) => decide (ContigCons c ∧
    c.angles = [-45, 0, 45, 90] ∧
    ((⌈(calcMini10 c ssStack.length).m0⌉ + ⌈(calcMini10 c ssStack.length).m90⌉ +
      max ((calcMini10 c ssStack.length).m45 + (calcMini10 c ssStack.length).m135) (calcMini10 c ssStack.length).m45_135 +
      (if c.sym then 2 else 4) * (if c.damTol = true ∧ c.damTolAttr.twoPlies = true then 2 else 1) : Int) ≤
      Spec.designPlies c.sym ssStack.length) ∧
    repairSs (ssSetup c true true) none ssStack = some (.ok
      ([0, 0, 0, 0, 0, -45, 0, 45, 90, 45, 90, -45, -45, 90, 45, 90, 45, 0, -45, 0, 0, 0, 0, 0], true, none)) ∧
    repairSs (ssSetup c true false) none ssStack = some (.ok
      ([0, 0, 45, 0, 0, 0, 45, 0, -45, 90, 90, -45, -45, 90, 90, -45, 0, 45, 0, 0, 0, 45, 0, 0], true, none)) ∧
    repairSs (ssSetup c true true) (some 0) ssStack = some (.error .typeError))) (by decide +kernel)
  obtain ⟨t1, t2, t3, t4, t5, t6⟩ := of_decide_eq_true ht
  have hsym : Spec.Symmetric ssStack := by unfold Spec.Symmetric; decide +kernel
  exact ⟨c, hc, ssCase false true true c hc ssStack t1 t2 (by decide) (by decide) hsym t3,
    ssCase false true false c hc ssStack t1 t2 (by decide) (by decide) hsym t3, t4, t5, t6⟩

end Bella
