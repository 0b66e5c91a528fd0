import Verif.Props.RepairMp
/-
C61: a strip repaired with success, and what the result does not meet.
-/
namespace Bella

/-- Symmetric and balanced laminates with the disorientation and contiguity rules. -/
def mpArgs : ConsArgs where
  sym := true
  bal := true
  diso := true
  deltaAngle := 45
  contig := true
  nContig := 4

/-- Three panels of 6, 10 and 12 plies; the second one is the reference panel. -/
def mpLayout : Table := [mpRow 12 [1, 4, 3], mpRow 12 [3], mpRow 12 []]

/-- The laminate of the reference panel. -/
def mpRef : Stack := mpSym [0, 45, 0, -45, 90]

/-- The laminate of the thickest panel. -/
def mpGuide : Stack := mpSym [0, 45, 0, 0, -45, 90]

/-- The laminates given. -/
def mpStacks : List Stack := [mpSym [0, 90, 0], mpRef, mpGuide]

/-- Their blending strip. -/
def mpStrip : Py Reduced := mkReduced [12, 10, 6] true 10 [(0, 1), (1, 2)] [((0, 1), 1), ((1, 2), 1)]

/-- Their targets. -/
def mpTargets : Table := [[0, 0, 90], [0, 45, 0, -45, 90, 90], [0, 0]]

set_option synthInstance.maxHeartbeats 200000 in
set_option synthInstance.maxSize 1000 in
/-- The test of the example. -/
def mpTest1 (c : Cons) : Bool := match mpStrip with
    | .error _ => false
    | .ok r => decide (ContigCons c ∧ c.angles = [-45, 0, 45, 90] ∧ c.sym = true ∧ r.nPlies = [6, 10, 12] ∧ r.indRef = 1 ∧
      c.diso = true ∧ c.deltaAngle = 45 ∧ c.damTol = false ∧
      ((⌈(calcMini10 c mpRef.length).m0⌉ + ⌈(calcMini10 c mpRef.length).m90⌉ +
        max ((calcMini10 c mpRef.length).m45 + (calcMini10 c mpRef.length).m135) (calcMini10 c mpRef.length).m45_135 +
        (if c.sym then 2 else 4) * (if c.damTol = true ∧ c.damTolAttr.twoPlies = true then 2 else 1) : Int) ≤
        Spec.designPlies c.sym mpRef.length)) &&
      match repairMp (ssSetup c false false) (fun _ => true) (mpSetup c r mpTargets) mpStacks mpLayout mpGuide.length with
      | some (.ok x) => decide (x.success = true ∧ x.pdl = mpLayout ∧
        x.ss = [[0, 0, 90, 90, 0, 0], [0, 45, 0, -45, 90, 90, -45, 0, 45, 0], [0, 45, 0, -45, 90, 90, 90, 90, -45, 0, 45, 0]] ∧
        x.sst.map (fun row => row.map (fun x => decide (x = -1))) ≠ mpLayout.map (fun row => row.map (fun x => decide (x = -1))))
      | _ => false

theorem mpTest1_ok : ∃ c, mkConstraints mpArgs = .ok c ∧ mpTest1 c = true :=
  ok_of_test (mkConstraints mpArgs) mpTest1 (by decide +kernel)

/-- The strip is repaired with success; the thinnest panel has a 0 ply next to a 90 ply. -/
theorem mp_repaired : ∃ c r, mkConstraints mpArgs = .ok c ∧ c.diso = true ∧ c.deltaAngle = 45 ∧ c.damTol = false ∧
    MpCase mpArgs (ssSetup c false false) trig4 (mpSetup c r mpTargets) mpStacks mpLayout mpGuide mpRef (mpRow 12 [3]) ∧
    ∃ res, repairMp (ssSetup c false false) (fun _ => true) (mpSetup c r mpTargets) mpStacks mpLayout mpGuide.length =
        some (.ok res) ∧ res.success = true ∧ res.pdl = mpLayout ∧
      res.ss = [[0, 0, 90, 90, 0, 0], [0, 45, 0, -45, 90, 90, -45, 0, 45, 0], [0, 45, 0, -45, 90, 90, 90, 90, -45, 0, 45, 0]] ∧
      res.sst.map (fun row => row.map (fun x => decide (x = -1))) ≠ mpLayout.map (fun row => row.map (fun x => decide (x = -1))) := by
  obtain ⟨c, hc, ht⟩ := mpTest1_ok
  unfold mpTest1 at ht
  split at ht
  · cases ht
  · rename_i r hr
    rw [Bool.and_eq_true] at ht
    obtain ⟨h1, h2⟩ := ht
    obtain ⟨t1, t2, t3, t4, t5, t6, t7, t8, t9⟩ := of_decide_eq_true h1
    split at h2
    · rename_i x hx
      obtain ⟨g1, g2, g3, g4⟩ := of_decide_eq_true h2
      refine ⟨c, r, hc, t6, t7, t8, mpCase_of _ _ _ c r _ _ _ _ _ _ _ _ _ _ hr t2 t3
        (ssCase_of mpArgs false false c hc mpRef t1 t2 (by decide) (by decide) (by unfold Spec.Symmetric; decide +kernel) t9)
        ?_ (by decide) (by rw [t4]; rfl) (by rw [t4]; rfl) (by rw [t4, t5]; rfl) (by decide +kernel), x, hx, g1, g2, g3, g4⟩
      rw [t5]
      exact ⟨rfl, rfl, by decide, by decide, by decide, rfl, rfl, by decide⟩
    · cases h2

/-- C61 (violated): the ply drop layout returned by a successful repair is the one given, not the one of the repaired
strip: the drops of the table returned with it are elsewhere. -/
theorem C61_stale_layout_violation : ∃ a P cs S ss pdl guide ssRef rowRef,
    MpCase a P cs S ss pdl guide ssRef rowRef ∧
    ∃ r, repairMp P (fun _ => true) S ss pdl guide.length = some (.ok r) ∧ r.success = true ∧
      ∃ (p j : Nat) (row d : Stack), r.sst[p]? = some row ∧ r.pdl[p]? = some d ∧
        ¬ (row[j]? = some (-1) ↔ d[j]? = some (-1)) := by
  obtain ⟨c, r, hc, _, _, _, M, res, h, hs, hp, _, hne⟩ := mp_repaired
  refine ⟨_, _, _, _, _, _, _, _, _, M, res, h, hs, ?_⟩
  by_contra hcon
  apply hne
  obtain ⟨_, k2, _, k4, _⟩ := C61_panels _ _ _ _ _ _ _ _ _ _ M res h hs
  have hl : res.sst.length = mpLayout.length := by rw [k2]; exact M.panels.symm
  apply List.ext_getElem?
  intro p
  rw [List.getElem?_map, List.getElem?_map]
  by_cases hpl : p < mpLayout.length
  · have hpl' : p < res.sst.length := by omega
    have e1 : res.sst[p]? = some res.sst[p] := List.getElem?_eq_getElem hpl'
    have e2 : mpLayout[p]? = some mpLayout[p] := List.getElem?_eq_getElem hpl
    rw [e1, e2, Option.map_some, Option.map_some]
    congr 1
    have hn : p < (mpSetup c r mpTargets).r.nPlies.length := by rw [← k2]; omega
    obtain ⟨row, s, q1, _, q3, _⟩ := k4 p _ (List.getElem?_eq_getElem hn)
    rw [e1] at q1
    have q1 := Option.some.inj q1
    have hw := M.strip.width _ (List.getElem_mem hpl)
    apply List.ext_getElem?
    intro j
    rw [List.getElem?_map, List.getElem?_map]
    by_cases hj : j < mpGuide.length
    · have f1 : res.sst[p][j]? = some (res.sst[p][j]'(by rw [q1, q3]; exact hj)) := List.getElem?_eq_getElem _
      have f2 : mpLayout[p][j]? = some (mpLayout[p][j]'(by rw [hw]; exact hj)) := List.getElem?_eq_getElem _
      rw [f1, f2, Option.map_some, Option.map_some]
      congr 1
      rw [decide_eq_decide]
      by_contra hcc
      apply hcon
      refine ⟨p, j, _, _, e1, by rw [hp]; exact e2, ?_⟩
      rw [f1, f2, Option.some.injEq, Option.some.injEq]
      exact hcc
    · rw [List.getElem?_eq_none (by rw [q1, q3]; omega), List.getElem?_eq_none (by rw [hw]; omega)]
  · rw [List.getElem?_eq_none (by omega), List.getElem?_eq_none (by omega)]

/-- C61 (violated): the disorientation rule is not enforced when the thinner panels are redesigned: a repair that ends with
success can return a thinner panel that breaks it, although it is switched on. -/
theorem C61_disorientation_violation : ∃ a P cs S ss pdl guide ssRef rowRef,
    MpCase a P cs S ss pdl guide ssRef rowRef ∧ P.c.diso = true ∧ P.c.damTol = false ∧
    ∃ r, repairMp P (fun _ => true) S ss pdl guide.length = some (.ok r) ∧ r.success = true ∧
      ∃ s, r.ss[0]? = some s ∧ ¬ Spec.DisoOK P.c.deltaAngle s := by
  obtain ⟨c, r, hc, t6, t7, t8, M, res, h, hs, _, he, _⟩ := mp_repaired
  refine ⟨_, _, _, _, _, _, _, _, _, M, t6, t8, res, h, hs, _, by rw [he]; rfl, ?_⟩
  show ¬ Spec.DisoOK c.deltaAngle _
  rw [t7]
  intro hd
  have := hd 1 0 90 rfl rfl
  obtain ⟨k, hk⟩ := this
  rw [abs_le] at hk
  omega

end Bella
