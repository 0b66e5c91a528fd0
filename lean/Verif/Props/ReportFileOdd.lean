import Verif.Props.ReportFileExample
/-
C73: a complete run for a symmetric structure whose panels have odd numbers of plies, from a layout given in a file.
-/
namespace Bella

/-- The strip; the thickest panel is the reference panel. -/
def oddFileStrip : Py Reduced := mkReduced [13, 11, 7] true 13 [(0, 1), (1, 2)] [((0, 1), 1), ((1, 2), 1)]

/-- Three panels of 13, 11 and 7 plies: the seven plies of one half, the middle ply last. -/
def oddFileSetup (c : Cons) (r : Reduced) : BellaSetup ℚ :=
  { repSetup c r with
    problem := fun t => { (repSetup c r).problem t with
      indices := [0, 1, 2, 3, 4, 5, 6]
      hasMiddle := true }
    plies := [13, 11, 7] }

/-- The layout of the file. -/
def oddFileLayout : Table :=
  [[1, -1, -1, -1, 2, 3, 4, 3, 2, -1, -1, -1, 1], [1, 2, -1, 3, 4, 5, 6, 5, 4, 3, -1, 2, 1], [1, 2, 3, 4, 5, 6, 7, 6, 5, 4, 3, 2, 1]]

set_option synthInstance.maxHeartbeats 200000 in
set_option synthInstance.maxSize 1000 in
/-- The test of the example. -/
def oddFileTest (c : Cons) : Bool := match oddFileStrip with
    | .error _ => false
    | .ok r => decide (ContigCons c ∧ c.angles = [-45, 0, 45, 90] ∧ c.sym = true ∧ c.covering = false ∧ c.nCovering = 0 ∧
      r.nPlies = [7, 11, 13] ∧ r.indRef = 2 ∧
      ((⌈(calcMini10 c 13).m0⌉ + ⌈(calcMini10 c 13).m90⌉ +
        max ((calcMini10 c 13).m45 + (calcMini10 c 13).m135) (calcMini10 c 13).m45_135 +
        (if c.sym then 2 else 4) * (if c.damTol = true ∧ c.damTolAttr.twoPlies = true then 2 else 1) : Int) ≤
        Spec.designPlies c.sym 13)) &&
      (match bellaRun (oddFileSetup c r) repTargets (some [oddFileLayout]) [] with
      | some (.ok x) => (match x.design with
          | some y => decide (y.obj < failObj ∧ y.ss = [[45, 90, 90, 90, -45, 0, 0, 0, -45, 90, 90, 90, 45],
              [45, 90, 90, -45, 0, 0, 0, -45, 90, 90, 45], [45, 90, 0, 0, 0, 90, 45]])
          | none => false)
      | _ => false)

theorem oddFileTest_ok : ∃ c, mkConstraints repArgs = .ok c ∧ oddFileTest c = true :=
  ok_of_test (mkConstraints repArgs) oddFileTest (by decide +kernel)

/-- A complete run from a file for panels of 13, 11 and 7 plies: the hypotheses of the theorems C73 hold. -/
theorem C73_odd_example : ∃ (B : BellaSetup ℚ) (pdls : List Table) (out : BellaOutput) (res : OneResult),
    FileCase repArgs B trig4 ∧ B.save = false ∧ B.plies = [13, 11, 7] ∧ B.O.S.c.sym = true ∧
    B.O.S.targets.length = B.O.S.r.nPlies.length ∧ (∀ t ∈ pdls, Spec.SoundLayout B.O.S.c.sym B.O.S.c.nCovering t) ∧
    bellaRun B repTargets (some pdls) [] = some (.ok out) ∧ out.design = some res ∧ res.obj ≠ failObj ∧
    res.ss = [[45, 90, 90, 90, -45, 0, 0, 0, -45, 90, 90, 90, 45], [45, 90, 90, -45, 0, 0, 0, -45, 90, 90, 45],
      [45, 90, 0, 0, 0, 90, 45]] := by
  obtain ⟨c, hc, ht⟩ := oddFileTest_ok
  unfold oddFileTest at ht
  split at ht
  · cases ht
  · rename_i r hr
    rw [Bool.and_eq_true] at ht
    obtain ⟨h1, h3⟩ := ht
    obtain ⟨t1, t2, t3, t4, t0, t5, t6, t10⟩ := of_decide_eq_true h1
    have M := oneCase_of repArgs c r ((oddFileSetup c r).problem oddFileLayout) (repOne c r) [13, 11, 7] [7, 11, 13] 13 13 13 _ _ hc
      rfl rfl ⟨rfl, rfl⟩ (by
        intro o q h
        have h := Except.ok.inj h
        rw [← h]
        have : (0 : ℚ) ≤ |o.sum - 1200| / 100 := by positivity
        linarith) hr t1 t2 t3 t4 t5 (by rw [t6]; rfl) (by decide) rfl rfl
        (by show ∀ row ∈ oddFileLayout, _; decide) rfl (by show oddFileLayout.map _ = _; decide)
        (by show ∀ row ∈ oddFileLayout, _; decide) (by decide) t10
    split at h3
    · rename_i x hx
      split at h3
      · rename_i y hy
        obtain ⟨u1, u2⟩ := of_decide_eq_true h3
        refine ⟨oddFileSetup c r, _, x, y, ?_, rfl, rfl, t3, ?_, ?_, hx, hy, ne_of_lt u1, u2⟩
        · exact {
            cons := hc
            sameR := rfl
            problem := fun t => ⟨rfl, rfl, by show 3 = r.nPlies.length; rw [t5]; rfl⟩
            objBound := fun _ => M.objBound
            reduced := M.reduced
            parity := by intro _; show ∀ n ∈ [13, 11, 7], ∀ m ∈ [13, 11, 7], n % 2 = m % 2; decide
            noMinusOne := M.noMinusOne
            designed := by
              show ∀ n ∈ [13, 11, 7], 2 * c.nCovering < n
              rw [t0]
              decide
            sizes := by show (1 : Int) ≤ 4 ∧ (4 : Int) ≤ 6; decide
            fuel := by show (6 : Int) - 4 + 1 ≤ ((3 : Nat) : Int); decide
            repair := M.repair }
        · show 3 = r.nPlies.length
          rw [t5]
          rfl
        · intro t ht row hrow
          refine ⟨fun _ j => ?_, fun j hj => ?_⟩
          · have : row.map (fun (x : Int) => decide (x = -1)) = (row.map (fun (x : Int) => decide (x = -1))).reverse := by
              revert row t
              decide
            have e := congrArg (fun (l : List Bool) => l[j]?) this
            simp only [← List.map_reverse, List.getElem?_map] at e
            constructor
            · intro h
              rw [h] at e
              cases h' : row.reverse[j]? with
              | none => rw [h'] at e; cases e
              | some z => rw [h'] at e; simpa using e.symm
            · intro h
              rw [h] at e
              cases h' : row[j]? with
              | none => rw [h'] at e; cases e
              | some z => rw [h'] at e; simpa using e
          · have hj : j < c.nCovering := hj
            rw [t0] at hj
            omega
      · cases h3
    · cases h3

end Bella
