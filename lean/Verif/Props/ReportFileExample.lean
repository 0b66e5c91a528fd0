import Verif.Props.ReportFile
import Verif.Props.ReportExample
/-
C73: complete runs from layouts given in a file.
-/
namespace Bella

/-- The layouts of the file: those of `repDraws`. -/
def fileLayouts : List Table :=
  [[[1, -1, -1, -1, 2, 3, 3, 2, -1, -1, -1, 1], [1, 2, -1, 3, 4, 5, 5, 4, 3, -1, 2, 1], [1, 2, 3, 4, 5, 6, 6, 5, 4, 3, 2, 1]],
   [[1, -1, 2, -1, -1, 3, 3, -1, -1, 2, -1, 1], [1, 2, 3, -1, 4, 5, 5, 4, -1, 3, 2, 1], [1, 2, 3, 4, 5, 6, 6, 5, 4, 3, 2, 1]]]

/-- The sheets of the file. -/
def fileSheets (k : Nat) : Option Table := if k = 0 then none else fileLayouts[k - 1]?

/-- A layout without symmetry. -/
def oddLayout : Table :=
  [[1, -1, 3, -1, -1, 6, -1, 7, -1, 10, -1, 12], [1, 2, 3, -1, 5, 6, 7, 8, 9, -1, 11, 12], [1, 2, 3, 4, 5, 6, 7, 8, 9, 10, 11, 12]]

set_option synthInstance.maxHeartbeats 200000 in
set_option synthInstance.maxSize 1000 in
/-- The test of the examples. -/
def fileTest (c : Cons) : Bool := match repStrip with
    | .error _ => false
    | .ok r => decide (ContigCons c ∧ c.angles = [-45, 0, 45, 90] ∧ c.sym = true ∧ c.covering = false ∧ c.nCovering = 0 ∧
      r.nPlies = [6, 10, 12] ∧ r.indRef = 2 ∧
      ((⌈(calcMini10 c 12).m0⌉ + ⌈(calcMini10 c 12).m90⌉ +
        max ((calcMini10 c 12).m45 + (calcMini10 c 12).m135) (calcMini10 c 12).m45_135 +
        (if c.sym then 2 else 4) * (if c.damTol = true ∧ c.damTolAttr.twoPlies = true then 2 else 1) : Int) ≤
        Spec.designPlies c.sym 12)) &&
      (match bellaRun (repSetup c r) repTargets (some (fileLayouts ++ [fileLayouts.getLast (by decide)])) [] with
      | some (.ok x) => decide (x.sheets.map (fun (y : Report) => y.obj) =
          [some (718 / 225), some (2068 / 675), some (2068 / 675)]) && (match x.design with
          | some y => decide (y.obj = 2068 / 675)
          | none => false)
      | _ => false) &&
      (match bellaRun (repSetup c r) repTargets (some [oddLayout]) [] with
      | some (.ok x) => (match x.design with
          | some y => decide (y.obj = 2068 / 675)
          | none => false)
      | _ => false)

theorem fileTest_ok : ∃ c, mkConstraints repArgs = .ok c ∧ fileTest c = true :=
  ok_of_test (mkConstraints repArgs) fileTest (by decide +kernel)

/-- Complete runs from files: the hypotheses of the theorems C73 hold for a file of two layouts, the second of which is tried twice; the
run from a layout without symmetry ends too, although laminates are to be symmetric. -/
theorem C73_run_example : ∃ (B : BellaSetup ℚ) (pdls : List Table) (out : BellaOutput) (res : OneResult),
    BellaCase repArgs B trig4 ∧ B.save = false ∧ B.plies = [12, 10, 6] ∧ B.O.S.c.sym = true ∧
    B.O.S.targets.length = B.O.S.r.nPlies.length ∧ readPdls fileSheets 9 1 none [] = .ok pdls ∧
    (∀ t ∈ pdls, Spec.SoundLayout B.O.S.c.sym B.O.S.c.nCovering t) ∧
    bellaRun B repTargets (some pdls) [] = some (.ok out) ∧ out.design = some res ∧ res.obj = 2068 / 675 ∧
    out.sheets.map (fun (y : Report) => y.obj) = [some (718 / 225), some (2068 / 675), some (2068 / 675)] ∧
    ∃ (odd : Table) (out' : BellaOutput) (res' : OneResult), ¬ Spec.SoundLayout B.O.S.c.sym B.O.S.c.nCovering odd ∧
      bellaRun B repTargets (some [odd]) [] = some (.ok out') ∧ out'.design = some res' ∧ res'.obj = 2068 / 675 := by
  obtain ⟨c, hc, ht⟩ := fileTest_ok
  unfold fileTest at ht
  split at ht
  · cases ht
  · rename_i r hr
    rw [Bool.and_eq_true, Bool.and_eq_true] at ht
    obtain ⟨⟨h1, h3⟩, h5⟩ := ht
    obtain ⟨t1, t2, t3, t4, t0, t5, t6, t10⟩ := of_decide_eq_true h1
    have M := oneCase_of repArgs c r (oneProblem 1200 c) (repOne c r) [12, 10, 6] [6, 10, 12] 12 12 12 _ _ hc rfl rfl
      ⟨rfl, rfl⟩ (by
        intro o q h
        have h := Except.ok.inj h
        rw [← h]
        have : (0 : ℚ) ≤ |o.sum - 1200| / 100 := by positivity
        linarith) hr t1 t2 t3 t4 t5 (by rw [t6]; rfl) (by decide) rfl rfl
        (by show ∀ row ∈ mpLayout, _; decide) rfl (by show mpLayout.map _ = _; decide) (by show ∀ row ∈ mpLayout, _; decide)
        (by decide) t10
    split at h3
    · rename_i x hx
      rw [Bool.and_eq_true] at h3
      have u1 := of_decide_eq_true h3.1
      have h4 := h3.2
      split at h4
      · rename_i y hy
        have h4 := of_decide_eq_true h4
        split at h5
        · rename_i x' hx'
          split at h5
          · rename_i y' hy'
            have h5 := of_decide_eq_true h5
            refine ⟨repSetup c r, _, x, y, ?_, rfl, rfl, t3, ?_, ?_, ?_, hx, hy, h4, u1, oddLayout, x', y', ?_, hx', hy', h5⟩
            · exact {
                cons := hc
                sameR := rfl
                problem := fun t => ⟨rfl, rfl, by show 3 = r.nPlies.length; rw [t5]; rfl⟩
                objBound := fun _ => M.objBound
                reduced := M.reduced
                even := by intro _; show ∀ n ∈ [12, 10, 6], n % 2 = 0; decide
                noMinusOne := M.noMinusOne
                designed := by
                  show ∀ n ∈ [12, 10, 6], 2 * c.nCovering < n
                  rw [t0]
                  decide
                sizes := by show (1 : Int) ≤ 4 ∧ (4 : Int) ≤ 6; decide
                fuel := by show (6 : Int) - 4 + 1 ≤ ((3 : Nat) : Int); decide
                repair := M.repair }
            · show 3 = r.nPlies.length
              rw [t5]
              rfl
            · decide +kernel
            · intro t ht row hrow
              refine ⟨fun _ j => ?_, fun j hj => ?_⟩
              · have : row.map (fun (x : Int) => decide (x = -1)) = (row.map (fun (x : Int) => decide (x = -1))).reverse := by
                  revert row t
                  decide
                have e := congrArg (fun (l : List Bool) => l[j]?) this
                simp only [← List.map_reverse, List.getElem?_map] at e
                constructor
                · intro h
                  rw [h] at e
                  cases h' : row.reverse[j]? with
                  | none => rw [h'] at e; cases e
                  | some z => rw [h'] at e; simpa using e.symm
                · intro h
                  rw [h] at e
                  cases h' : row[j]? with
                  | none => rw [h'] at e; cases e
                  | some z => rw [h'] at e; simpa using e
              · have hj : j < c.nCovering := hj
                rw [t0] at hj
                omega
            · intro hbad
              have := (hbad [1, 2, 3, -1, 5, 6, 7, 8, 9, -1, 11, 12] (by decide)).1 t3 3
              revert this
              decide
          · cases h5
        · cases h5
      · cases h4
    · cases h3

/-- Covering plies and balanced laminates. -/
def covArgs : ConsArgs :=
  { repArgs with
    percent0 := 0
    percent90 := 0
    percent45 := 1
    covering := true
    nCovering := 1 }

/-- A layout without the covering plies of the panel of 10 plies. -/
def covLayout : Table :=
  [[1, 2, 3, -1, -1, 6, 7, -1, -1, 10, 11, 12], [-1, 2, 3, 4, 5, 6, 7, 8, 9, 10, 11, -1], [1, 2, 3, 4, 5, 6, 7, 8, 9, 10, 11, 12]]

set_option synthInstance.maxHeartbeats 200000 in
/-- The test of the violation. -/
def covTest (c : Cons) : Bool := match mkReduced [12, 10, 8] true 10 [(0, 1), (1, 2)] [((0, 1), 1), ((1, 2), 1)] with
    | .error _ => false
    | .ok r => decide (c.covering = true ∧ c.nCovering = 1 ∧ c.sym = true) &&
      (match bellaRun { repSetup c r with plies := [12, 10, 8] } repTargets (some [covLayout]) [] with
      | some (.ok x) => (match x.design with
          | some y => decide (y.obj = 1039 / 180 ∧ y.sst = [[90, 90, 90, -45, 90, 45, 45, 90, -45, 90, 90, 90],
              [90, -1, 90, -45, 90, 45, 45, 90, -45, 90, -1, 90], [-1, -1, 90, -45, 90, 45, 45, 90, -45, 90, -1, -1]])
          | none => false)
      | _ => false)

theorem covTest_ok : ∃ c, mkConstraints covArgs = .ok c ∧ covTest c = true :=
  ok_of_test (mkConstraints covArgs) covTest (by decide +kernel)

/-- **C73 (violation).** "Layouts that break the constraints are refused": with covering plies required, a layout without them is
accepted, and the outermost plies are dropped in the design returned. -/
theorem C73_covering_violation : ∃ (c : Cons) (r : Reduced) (B : BellaSetup ℚ) (pdls : List Table) (out : BellaOutput) (res : OneResult)
    (row : Stack), mkConstraints covArgs = .ok c ∧ c.covering = true ∧ c.nCovering = 1 ∧ c.sym = true ∧
    mkReduced [12, 10, 8] c.sym 10 [(0, 1), (1, 2)] [((0, 1), 1), ((1, 2), 1)] = .ok r ∧
    B.O.S.c = c ∧ B.O.R.c = c ∧ B.O.S.r = r ∧ B.plies = [12, 10, 8] ∧
    bellaRun B repTargets (some pdls) [] = some (.ok out) ∧ out.design = some res ∧ res.obj ≠ failObj ∧
    res.sst[2]? = some row ∧ row[0]? = some (-1) ∧ row.reverse[0]? = some (-1) := by
  obtain ⟨c, hc, ht⟩ := covTest_ok
  unfold covTest at ht
  split at ht
  · cases ht
  · rename_i r hr
    rw [Bool.and_eq_true] at ht
    obtain ⟨h1, h2⟩ := ht
    obtain ⟨t1, t2, t3⟩ := of_decide_eq_true h1
    split at h2
    · rename_i x hx
      split at h2
      · rename_i y hy
        obtain ⟨u1, u2⟩ := of_decide_eq_true h2
        refine ⟨c, r, _, _, x, y, _, hc, t1, t2, t3, by rw [t3]; exact hr, rfl, rfl, rfl, rfl, hx, hy, ?_, by rw [u2]; rfl, rfl, rfl⟩
        rw [u1]
        unfold failObj
        norm_num
      · cases h2
    · cases h2

end Bella
