import Verif.Model.InputFile
import Verif.Props.Panels
import Verif.Props.MultiPanel
import Verif.Props.Constraints
import Verif.Props.Boundaries
/-
C84: an input file written with save_set_up.py describes, once it is read by the scripts run_BELLA_from_input_file_*.py, the problem that was saved.
-/
namespace Bella
open Spec

/-! ### The constraints -/

theorem mkConstraints_of (a : ConsArgs) (p : Percents) (hp : setPercentages a = .ok p)
    (h1 : a.damTol = true → a.damTolRule = 1 ∨ a.damTolRule = 2 ∨ a.damTolRule = 3)
    (h2 : a.nCovering = 0 ∨ a.nCovering = 1 ∨ a.nCovering = 2)
    (h3 : ¬ (a.contig = true ∧ a.nContig = 1))
    (h4 : ∀ x ∈ npUnique a.setOfAngles, -90 < x ∧ x ≤ 90)
    (h5 : a.rule10 = true → 0 ∈ npUnique a.setOfAngles ∧ 45 ∈ npUnique a.setOfAngles ∧
        90 ∈ npUnique a.setOfAngles ∧ -45 ∈ npUnique a.setOfAngles)
    (h6 : ∀ x ∈ npUnique a.setOfAngles, x ≠ 90 → -x ∈ npUnique a.setOfAngles)
    (h7 : mkAnglesBal (npUnique a.setOfAngles) (mkIndAngles (npUnique a.setOfAngles)) ≠ [])
    (h8 : a.setOfAngles.dedup.length = a.setOfAngles.length) (h9 : 1 ≤ a.minDrop) :
    ∃ c, mkConstraints a = .ok c := by
  unfold mkConstraints
  rw [if_neg (by rintro ⟨hd, hn⟩; exact hn (h1 hd)), if_neg (by intro hn; exact hn h2)]
  simp only [bind, Except.bind, hp]
  rw [if_neg h3, if_neg, if_neg, if_neg, if_neg h7, if_neg (by intro hn; exact hn h8), if_neg (by omega)]
  · exact ⟨_, rfl⟩
  · intro hn
    simp only [List.any_eq_true, Bool.and_eq_true, decide_eq_true_eq, Bool.not_eq_true', List.contains_eq_mem, decide_eq_false_iff_not] at hn
    obtain ⟨x, hx, hne, hm⟩ := hn
    exact hm (h6 x hx hne)
  · intro hn
    simp only [Bool.and_eq_true, Bool.or_eq_true, Bool.not_eq_true', List.contains_eq_mem, decide_eq_false_iff_not] at hn
    have := h5 hn.2
    tauto
  · intro hn
    simp only [Bool.or_eq_true, List.any_eq_true, decide_eq_true_eq] at hn
    rcases hn with ⟨x, hx, hy⟩ | ⟨x, hx, hy⟩
    · have := h4 x hx; omega
    · have := h4 x hx; omega

theorem npUnique_npUnique (l : List Int) : npUnique (npUnique l) = npUnique l := by
  show (npUnique l).dedup.insertionSort (· ≤ ·) = _
  rw [(nodup_npUnique l).dedup]
  exact List.Pairwise.insertionSort_eq ((sorted_npUnique l).imp (fun h => le_of_lt h))

theorem truncRat_int (z : Int) : truncRat (z : ℚ) = z := by
  unfold truncRat
  split
  · exact Rat.floor_intCast z
  · have : (-(z : ℚ)) = ((-z : Int) : ℚ) := by push_cast; rfl
    rw [this, Rat.floor_intCast]
    omega

theorem truncRat_nat (n : Nat) : truncRat (n : ℚ) = n := by
  have : (n : ℚ) = ((n : Int) : ℚ) := by push_cast; rfl
  rw [this, truncRat_int]

/-- The arguments read from the saved sheet. -/
def savedArgs (c : Cons) : ConsArgs :=
  { sym := c.sym, bal := c.bal, oopo := c.oopo, damTol := c.damTol, damTolRule := damTolRuleOf c.damTolAttr
    covering := c.covering, nCovering := c.nCovering, rule10 := c.rule10, rule10Abdalla := c.rule10 && c.rule10Abdalla
    percent0 := if c.rule10 then c.p0 * 100 else 0, percent45 := if c.rule10 then c.p45 * 100 else 0
    percent90 := if c.rule10 then c.p90 * 100 else 0, percent135 := if c.rule10 then c.p135 * 100 else 0
    percent45_135 := if c.rule10 then c.p45_135 * 100 else 0, percentAbdalla := if c.rule10 then c.pAbdalla * 100 else 0
    diso := c.diso, deltaAngle := c.deltaAngle, contig := c.contig, nContig := c.nContigC
    setOfAngles := c.angles, pdlSpacing := c.pdlSpacing, minDrop := c.minDrop }

theorem readConstraints_save (c : Cons) (h : c.angles ≠ []) : readConstraints (saveConstraints c) = .ok (savedArgs c) := by
  have e : Cell.asInts (.ints c.angles) = .ok c.angles := by
    cases hc : c.angles with
    | nil => exact absurd hc h
    | cons x l => rfl
  unfold readConstraints saveConstraints
  simp [Sheet.flag, Sheet.int, Sheet.float, Sheet.ints, Sheet.cell, List.lookup, Cell.asFlag, Cell.asInt, Cell.asFloat, savedPercent, bind, Except.bind,
    truncRat_int, truncRat_nat, e, pure, Except.pure, savedArgs]

theorem setPercentages_save (a a' : ConsArgs) (p : Percents) (hp : setPercentages a = .ok p) (hcalc : a.calcCombine45_135 = true)
    (hcalc' : a'.calcCombine45_135 = true) (hr : a'.rule10 = a.rule10) (hra : a'.rule10Abdalla = (a.rule10 && a.rule10Abdalla))
    (e0 : a'.percent0 = if a.rule10 then p.p0 * 100 else 0) (e1 : a'.percent45 = if a.rule10 then p.p45 * 100 else 0)
    (e2 : a'.percent90 = if a.rule10 then p.p90 * 100 else 0) (e3 : a'.percent135 = if a.rule10 then p.p135 * 100 else 0)
    (e4 : a'.percent45_135 = if a.rule10 then p.p45_135 * 100 else 0)
    (e5 : a'.percentAbdalla = if a.rule10 then p.pAbdalla * 100 else 0) : setPercentages a' = .ok p := by
  unfold setPercentages badPercent at hp
  simp only [Bool.or_eq_true, decide_eq_true_eq] at hp
  split at hp
  · cases hp
  rename_i g0
  split at hp
  · cases hp
  rename_i g1
  split at hp
  · cases hp
  rename_i g2
  split at hp
  · cases hp
  rename_i g3
  split at hp
  · cases hp
  rename_i g4
  split at hp
  · cases hp
  rename_i g5
  simp only [not_or, not_lt, gt_iff_lt] at g0 g1 g2 g3 g4 g5
  have ht : (0 : ℚ) < tol15 := by unfold tol15; norm_num
  have big : (0 : ℚ) ≤ 249999999 / 10000000 := by norm_num
  unfold setPercentages badPercent
  simp only [Bool.or_eq_true, decide_eq_true_eq, hr, hra]
  by_cases r : a.rule10 = true
  · simp only [r, if_true, Bool.true_and] at hp e0 e1 e2 e3 e4 e5 ⊢
    by_cases ra : a.rule10Abdalla = true
    · simp only [ra, if_true] at hp ⊢
      cases Except.ok.inj hp
      simp only [zero_mul] at e0 e1 e2 e3 e4 e5
      have e5' : a'.percentAbdalla = a.percentAbdalla := by rw [e5]; ring
      simp only [e0, e1, e2, e3, e4, e5']
      rw [if_neg (by push Not; exact ⟨g0.1, g0.2⟩)]
      norm_num
    · simp only [ra, Bool.false_eq_true, if_false] at hp ⊢
      rcases Bool.eq_false_or_eq_true (combineFlag a) with hf | hf
      · simp only [hf, if_true] at hp
        cases Except.ok.inj hp
        simp only [zero_mul, zero_div] at e0 e1 e2 e3 e4 e5
        have f0 : a'.percent0 = a.percent0 := by rw [e0]; ring
        have f2 : a'.percent90 = a.percent90 := by rw [e2]; ring
        have f4 : a'.percent45_135 = a.percent45_135 := by rw [e4]; ring
        have hf' : combineFlag a' = true := by
          unfold combineFlag
          rw [hcalc', if_pos rfl, if_neg]
          rw [e1, e3, f4]
          have : 0 ≤ a.percent45_135 / 2 := by linarith
          push Not
          constructor <;> linarith
        simp only [hf', if_true, f0, e1, f2, e3, f4, e5]
        rw [if_neg (by push Not; exact ⟨le_refl _, big⟩), if_neg (by push Not; exact g1), if_neg (by norm_num), if_neg (by push Not; exact g3),
          if_neg (by norm_num), if_neg (by push Not; exact g5)]
      · simp only [hf, Bool.false_eq_true, if_false] at hp
        cases Except.ok.inj hp
        simp only [zero_mul, zero_div] at e0 e1 e2 e3 e4 e5
        have f0 : a'.percent0 = a.percent0 := by rw [e0]; ring
        have f1 : a'.percent45 = a.percent45 := by rw [e1]; ring
        have f2 : a'.percent90 = a.percent90 := by rw [e2]; ring
        have f3 : a'.percent135 = a.percent135 := by rw [e3]; ring
        have hf' : combineFlag a' = false := by
          unfold combineFlag at hf ⊢
          rw [hcalc, if_pos rfl] at hf
          rw [hcalc', if_pos rfl, if_pos]
          rw [f1, f3, e4]
          by_contra hn
          rw [if_neg] at hf
          · cases hf
          · intro hm
            apply hn
            have : 0 ≤ a.percent45_135 / 2 := by linarith
            rcases hm with hm | hm
            · left; linarith
            · right; linarith
        simp only [hf', Bool.false_eq_true, if_false, f0, f1, f2, f3, e4, e5]
        rw [if_neg (by push Not; exact ⟨le_refl _, big⟩), if_neg (by push Not; exact g1), if_neg (by push Not; exact g2), if_neg (by push Not; exact g3),
          if_neg (by push Not; exact g4), if_neg (by norm_num)]
  · simp only [r, Bool.false_eq_true, if_false, Bool.false_and] at hp e0 e1 e2 e3 e4 e5 ⊢
    simp only [e0, e1, e2, e3, e4, e5]
    rw [if_neg (by push Not; exact ⟨le_refl _, big⟩), if_neg (by norm_num)]
    exact hp

/-- **C84.** A set of constraints that was saved is read back as it was, except that the switch of the 10% rule on lamination parameters is off
when the 10% rule itself is off (where it has no effect). -/
theorem C84_constraints (a : ConsArgs) (c : Cons) (h : mkConstraints a = .ok c) (hcalc : a.calcCombine45_135 = true) :
    loadConstraints (saveConstraints c) = .ok { c with rule10Abdalla := c.rule10 && c.rule10Abdalla } := by
  obtain ⟨p, hp, h1, h2, h3, h4, h5, h6, h7, h8, h9, hc⟩ := mkConstraints_inv a c h
  have hang : c.angles = npUnique a.setOfAngles := by rw [hc]
  have hne : c.angles ≠ [] := by
    rw [hang]; intro hn; rw [hn] at h7; exact h7 rfl
  have hp' : setPercentages (savedArgs c) = .ok p := by
    apply setPercentages_save a (savedArgs c) p hp hcalc rfl <;> simp [savedArgs, hc]
  have hu : npUnique (savedArgs c).setOfAngles = npUnique a.setOfAngles := by
    show npUnique c.angles = _
    rw [hang, npUnique_npUnique]
  have hd : c.angles.dedup.length = c.angles.length := by
    rw [hang, (nodup_npUnique _).dedup]
  unfold loadConstraints
  rw [readConstraints_save c hne]
  show mkConstraints (savedArgs c) = _
  obtain ⟨c', hc'⟩ := mkConstraints_of (savedArgs c) p hp' (by
      intro hdt
      have : a.damTol = true := by simpa [savedArgs, hc] using hdt
      simpa [savedArgs, hc, damTolRuleOf, this] using h1 this)
    (by
      simp only [savedArgs, hc]
      split_ifs <;> omega)
    (by
      rintro ⟨g1, g2⟩
      have g1' : a.contig = true := by simpa [savedArgs, hc] using g1
      simp only [savedArgs, hc, g1', if_true] at g2
      exact h3 ⟨g1', g2⟩)
    (by rw [hu]; exact h4)
    (by rw [hu]; intro hr; exact h5 (by simpa [savedArgs, hc] using hr))
    (by rw [hu]; exact h6) (by rw [hu]; exact h7) hd (by simpa [savedArgs, hc] using h9)
  rw [hc']
  obtain ⟨p', hq, _, _, _, _, _, _, _, _, _, e⟩ := mkConstraints_inv _ c' hc'
  rw [hp'] at hq
  cases Except.ok.inj hq
  rw [e, hu]
  congr 1
  have hdl : (savedArgs c).setOfAngles.dedup.length = a.setOfAngles.dedup.length := by
    show c.angles.dedup.length = _
    rw [hd, hang, length_npUnique]
  rw [hdl]
  rcases Bool.eq_false_or_eq_true a.damTol with d | d <;> rcases Bool.eq_false_or_eq_true a.covering with v | v <;>
    rcases Bool.eq_false_or_eq_true a.contig with k | k <;> rcases Bool.eq_false_or_eq_true a.diso with s | s <;>
    simp [hc, savedArgs, damTolRuleOf, d, v, k, s] <;> (try split_ifs) <;> omega

/-! ### The material and the objective function -/

/-- **C84.** A material that was saved is read back with the same moduli, stiffnesses, ply thickness and areal density; its density per volume is
the areal density divided by the ply thickness. -/
theorem C84_materials (E11 E22 nu12 G12 dv da t : ℚ) (m : Lamina ℚ) (h : mkMaterial E11 E22 nu12 G12 dv da t = .ok m) :
    loadMaterials (saveMaterials m) = .ok { m with densityVolume := m.densityArea / m.plyT } ∧
    ((da = 0) ≠ (dv = 0) → loadMaterials (saveMaterials m) = .ok m) := by
  have main : loadMaterials (saveMaterials m) = .ok { m with densityVolume := m.densityArea / m.plyT } ∧ ((da = 0) ≠ (dv = 0) → m.densityVolume = m.densityArea / m.plyT) := by
    unfold mkMaterial at h
    by_cases h1 : E11 ≤ 0
    · rw [if_pos h1] at h; cases h
    rw [if_neg h1, if_neg h1, if_neg h1] at h
    by_cases h2 : dv < 0
    · rw [if_pos h2] at h; cases h
    rw [if_neg h2] at h
    by_cases h3 : da < 0
    · rw [if_pos h3] at h; cases h
    rw [if_neg h3] at h
    by_cases h4 : t ≤ 0
    · rw [if_pos h4] at h; cases h
    rw [if_neg h4] at h
    dsimp only at h
    by_cases h5 : 1 - nu12 * (nu12 * E22 / E11) = 0
    · rw [if_pos h5] at h; cases h
    rw [if_neg h5] at h
    have h := (Except.ok.inj h).symm
    have ht : 0 < t := not_le.1 h4
    have hda : 0 ≤ da := not_lt.1 h3
    have hdv : 0 ≤ dv := not_lt.1 h2
    have hpos : 0 < m.densityArea := by
      rw [h]
      dsimp only
      split_ifs with g1 g2 g3
      · norm_num
      · dsimp only
        exact mul_pos (lt_of_le_of_ne hdv (fun e => g1 ⟨g2, e.symm⟩)) ht
      · exact lt_of_le_of_ne hda (Ne.symm g2)
      · exact lt_of_le_of_ne hda (Ne.symm g2)
    have e1 : m.E11 = E11 := by rw [h]
    have e2 : m.E22 = E22 := by rw [h]
    have e3 : m.nu12 = nu12 := by rw [h]
    have e4 : m.G12 = G12 := by rw [h]
    have e5 : m.plyT = t := by rw [h]
    constructor
    · have : loadMaterials (saveMaterials m) = mkMaterial m.E11 m.E22 m.nu12 m.G12 0 m.densityArea m.plyT := by
        unfold loadMaterials saveMaterials
        simp [Sheet.float, Sheet.cell, List.lookup, Cell.asFloat, bind, Except.bind]
      rw [this]
      unfold mkMaterial
      rw [e1, e2, e3, e4, e5, if_neg h1, if_neg h1, if_neg h1, if_neg (lt_irrefl _), if_neg (not_lt.2 hpos.le), if_neg h4]
      dsimp only
      rw [if_neg h5, if_neg (by rintro ⟨g, -⟩; exact hpos.ne' g), if_neg hpos.ne', if_pos rfl]
      congr 1
      rw [h]
    · intro hx
      rw [e5, h]
      dsimp only
      split_ifs with g1 g2 g3
      · exact absurd (by simp [g1.1, g1.2]) hx
      · dsimp only
        field_simp
      · rfl
      · exact absurd (by simp [g2, g3]) hx
  refine ⟨main.1, fun hx => ?_⟩
  rw [main.1, ← main.2 hx]

/-- **C84, violation.** When both densities are given, the density per volume is lost: whatever it was, the one read back is the areal density over
the ply thickness. -/
theorem C84_density_violation (E11 E22 nu12 G12 dv da t : ℚ) (m : Lamina ℚ) (h : mkMaterial E11 E22 nu12 G12 dv da t = .ok m) (hd : 0 < da)
    (hv : 0 < dv) (hne : dv ≠ da / t) : m.densityVolume = dv ∧ ∃ m', loadMaterials (saveMaterials m) = .ok m' ∧ m'.densityVolume = da / t ∧
      m'.densityVolume ≠ m.densityVolume := by
  have h1 : m.densityVolume = dv ∧ m.densityArea = da ∧ m.plyT = t := by
    unfold mkMaterial at h
    by_cases h1 : E11 ≤ 0
    · rw [if_pos h1] at h; cases h
    rw [if_neg h1, if_neg h1, if_neg h1, if_neg (not_lt.2 hv.le), if_neg (not_lt.2 hd.le)] at h
    by_cases h4 : t ≤ 0
    · rw [if_pos h4] at h; cases h
    rw [if_neg h4] at h
    dsimp only at h
    by_cases h5 : 1 - nu12 * (nu12 * E22 / E11) = 0
    · rw [if_pos h5] at h; cases h
    rw [if_neg h5] at h
    have h := (Except.ok.inj h).symm
    rw [h]
    simp [hd.ne', hv.ne']
  obtain ⟨g1, g2, g3⟩ := h1
  refine ⟨g1, _, (C84_materials E11 E22 nu12 G12 dv da t m h).1, ?_, ?_⟩
  · dsimp only; rw [g2, g3]
  · dsimp only; rw [g1, g2, g3]; exact hne.symm

/-- **C84.** The penalty coefficients that were saved are read back, except the one of balance, which is 1 when balance is required. -/
theorem C84_objective (c : Cons) (cDiso cContig c10 cBal cOopo cSpacing : ℚ) (nModes : Int) (o : ObjCoeffs)
    (h : mkObjFunction c.objSwitches cDiso cContig c10 cBal cOopo cSpacing nModes = .ok o) :
    loadObjFunction c (saveObjFunction o) = .ok { o with nModes := 1, cBal := if c.bal then 1 else 0 } := by
  have e : loadObjFunction c (saveObjFunction o) = mkObjFunction c.objSwitches o.cDiso o.cContig o.c10 1 o.cOopo o.cSpacing 1 := by
    unfold loadObjFunction saveObjFunction
    simp [Sheet.float, Sheet.cell, List.lookup, Cell.asFloat, bind, Except.bind]
  rw [e]
  unfold mkObjFunction at h ⊢
  simp only [bind_ok] at h
  obtain ⟨_, _, a1, h1, a2, h2, a3, h3, a4, h4, a5, h5, a6, h6, h7⟩ := h
  have h7 := Except.ok.inj h7
  subst h7
  have again : ∀ (b : Bool) (x y : ℚ) (s : String), objCoeff b x s = .ok y → objCoeff b y s = .ok y := by
    intro b x y s hb
    unfold objCoeff at hb ⊢
    cases b
    · simp only [Bool.false_eq_true, if_false] at hb ⊢
      cases Except.ok.inj hb; rfl
    · simp only [if_true] at hb ⊢
      split at hb
      · cases hb
      · rename_i hx
        cases Except.ok.inj hb
        rw [if_neg hx]
  have hb : objCoeff c.objSwitches.bal 1 "in-plane orthotropy" = .ok (if c.bal then 1 else 0) := by
    unfold objCoeff Cons.objSwitches
    cases c.bal
    · rfl
    · norm_num
  dsimp only
  rw [again _ _ _ _ h1, hb, again _ _ _ _ h3, again _ _ _ _ h4, again _ _ _ _ h5, again _ _ _ _ h6]
  rfl

/-- **C84, violation.** With balance required, the coefficient of the balance penalty is written but not read: any other value than 1 is lost. -/
theorem C84_balance_coefficient_violation (c : Cons) (hb : c.bal = true) (cDiso cContig c10 cBal cOopo cSpacing : ℚ) (nModes : Int) (o : ObjCoeffs)
    (h : mkObjFunction c.objSwitches cDiso cContig c10 cBal cOopo cSpacing nModes = .ok o) (hne : o.cBal ≠ 1) :
    (saveObjFunction o).lookup "coeff_bal_ipo" = some (.num o.cBal) ∧
      ∃ o', loadObjFunction c (saveObjFunction o) = .ok o' ∧ o'.cBal = 1 ∧ o'.cBal ≠ o.cBal := by
  refine ⟨by simp [saveObjFunction, List.lookup], _, C84_objective c cDiso cContig c10 cBal cOopo cSpacing nModes o h, ?_, ?_⟩
  · simp [hb]
  · simpa [hb] using hne.symm

/-! ### The panels -/

theorem saveTwelve_eq (name : String) (a b c d e f g i j k l m : ℚ) : saveTwelve name [a, b, c, d, e, f, g, i, j, k, l, m] = .ok
    [(name ++ "[1]", .num a), (name ++ "[2]", .num b), (name ++ "[3]", .num c), (name ++ "[4]", .num d), (name ++ "[5]", .num e), (name ++ "[6]", .num f),
     (name ++ "[7]", .num g), (name ++ "[8]", .num i), (name ++ "[9]", .num j), (name ++ "[10]", .num k), (name ++ "[11]", .num l), (name ++ "[12]", .num m)] := by
  rfl

/-- The arguments read for a saved panel. -/
def savedPanelArgs (hs : Bool) (p : SavedPanel) : PanelArgs where
  nPlies := p.panel.nPlies
  target := p.panel.target
  weights := p.weights
  lengthX := if hs then p.lengthX else 0
  lengthY := if hs then p.lengthY else 0
  weighting := p.panel.weighting

/-- The row of a saved panel, its lengths apart, is read back. -/
theorem loadPanel_save (hs : Bool) (c : Cons) (p : SavedPanel) (ht : p.panel.target.length = 12) (hw : p.weights.length = 12)
    (hi : p.panel.weightsIni.length = 12) (hl : hs = true → p.lengthX ≠ 0 ∧ p.lengthY ≠ 0) (hn : p.ids.neighbours ≠ []) :
    ∃ s, savePanel p = .ok s ∧ s.lookup "Neighbour panel IDs" = some (.ints p.ids.neighbours) ∧
      loadPanel hs c s = (do
        let q ← mkPanel c.sym (savedPanelArgs hs p)
        return (q, p.ids)) := by
  obtain ⟨⟨pn, ph, pm, pt, pi, pa, pw⟩, ⟨id, nb⟩, lx, ly, w⟩ := p
  dsimp only at *
  obtain ⟨t1, t2, t3, t4, t5, t6, t7, t8, t9, t10, t11, t12, rfl⟩ := list12 ht
  obtain ⟨i1, i2, i3, i4, i5, i6, i7, i8, i9, i10, i11, i12, rfl⟩ := list12 hi
  obtain ⟨w1, w2, w3, w4, w5, w6, w7, w8, w9, w10, w11, w12, rfl⟩ := list12 hw
  have e : Cell.asInts (.ints nb) = .ok nb := by
    cases hc : nb with
    | nil => exact absurd hc hn
    | cons x l => rfl
  unfold savePanel
  dsimp only
  rw [saveTwelve_eq, saveTwelve_eq, saveTwelve_eq]
  refine ⟨_, rfl, ?_, ?_⟩
  · simp [List.lookup]
  · unfold savedPanelArgs loadPanel readTwelve readLengths saveLengths brackets
    by_cases h2 : lx ≠ 0 ∧ ly ≠ 0
    · cases hs <;>
      simp [h2, Sheet.int, Sheet.float, Sheet.ints, Sheet.cell, List.lookup, Cell.asInt, Cell.asFloat, bind, Except.bind,
        truncRat_int, truncRat_nat, e, pure, Except.pure, List.mapM_cons]
    · have : hs = false := by cases hs; rfl; exact absurd (hl rfl) h2
      subst this
      simp [h2, Sheet.int, Sheet.float, Sheet.ints, Sheet.cell, List.lookup, Cell.asInt, Cell.asFloat, bind, Except.bind,
        truncRat_int, truncRat_nat, e, pure, Except.pure, List.mapM_cons]

/-- **C84.** The row of a panel in the sheet Panels: its ID, ply count, weighting and area, its lengths if both are not zero, and the weightings it had
before they were filtered, in order. -/
theorem C84_panel_row (P : SavedPanel) (s : Sheet) (ht : P.panel.target.length = 12) (hw : P.weights.length = 12)
    (hi : P.panel.weightsIni.length = 12) (h : savePanel P = .ok s) :
    s.lookup "Panel ID" = some (.num P.ids.ID) ∧ s.lookup "Number of plies" = some (.num P.panel.nPlies) ∧
    s.lookup "Weighting in MP objective funtion" = some (.num P.panel.weighting) ∧ s.lookup "Area" = some (.num P.panel.area) ∧
    (P.lengthX ≠ 0 ∧ P.lengthY ≠ 0 → s.lookup "Length_x" = some (.num P.lengthX) ∧ s.lookup "Length_y" = some (.num P.lengthY)) ∧
    (¬ (P.lengthX ≠ 0 ∧ P.lengthY ≠ 0) → s.lookup "Length_x" = none ∧ s.lookup "Length_y" = none) ∧
    ∀ (k : Nat) (x : ℚ), P.panel.weightsIni[k]? = some x →
      ∃ b, ["[1]", "[2]", "[3]", "[4]", "[5]", "[6]", "[7]", "[8]", "[9]", "[10]", "[11]", "[12]"][k]? = some b ∧
        s.lookup ("lampam_weightings_ini" ++ b) = some (.num x) := by
  obtain ⟨⟨pn, ph, pm, pt, pi, pa, pw⟩, ⟨id, nb⟩, lx, ly, w⟩ := P
  dsimp only at *
  obtain ⟨t1, t2, t3, t4, t5, t6, t7, t8, t9, t10, t11, t12, rfl⟩ := list12 ht
  obtain ⟨i1, i2, i3, i4, i5, i6, i7, i8, i9, i10, i11, i12, rfl⟩ := list12 hi
  obtain ⟨w1, w2, w3, w4, w5, w6, w7, w8, w9, w10, w11, w12, rfl⟩ := list12 hw
  unfold savePanel at h
  dsimp only at h
  rw [saveTwelve_eq, saveTwelve_eq, saveTwelve_eq] at h
  have h := (Except.ok.inj h).symm
  subst h
  unfold saveLengths
  dsimp only
  by_cases h2 : lx ≠ 0 ∧ ly ≠ 0
  · simp only [if_pos h2]
    refine ⟨by simp [List.lookup], by simp [List.lookup], by simp [List.lookup], by simp [List.lookup], fun _ => by simp [List.lookup],
      fun h => absurd h2 h, ?_⟩
    intro k x hk
    match k with
    | 0 | 1 | 2 | 3 | 4 | 5 | 6 | 7 | 8 | 9 | 10 | 11 =>
      simp at hk
      subst hk
      exact ⟨_, rfl, by simp [List.lookup]⟩
    | k + 12 => simp at hk
  · simp only [if_neg h2]
    refine ⟨by simp [List.lookup], by simp [List.lookup], by simp [List.lookup], by simp [List.lookup], fun h => absurd h h2,
      fun _ => by simp [List.lookup], ?_⟩
    intro k x hk
    match k with
    | 0 | 1 | 2 | 3 | 4 | 5 | 6 | 7 | 8 | 9 | 10 | 11 =>
      simp at hk
      subst hk
      exact ⟨_, rfl, by simp [List.lookup]⟩
    | k + 12 => simp at hk

/-- The filtered targets are not changed by the filter. -/
theorem filterTarget_again (c : Cons) (t T : List ℚ) (ht : t.length = 12) (h : filterTarget c t = .ok T) : T.length = 12 ∧ filterTarget c T = .ok T := by
  rw [filterTarget_spec c t ht, Except.ok.injEq] at h
  have hl : T.length = 12 := by rw [← h]; simp
  refine ⟨hl, ?_⟩
  rw [filterTarget_spec c T hl, Except.ok.injEq]
  conv_rhs => rw [← h]
  apply List.map_congr_left
  intro k hk
  have e : T.getD k 0 = if Vanishing (c.sym = true) (c.bal = true) False k ∨ OopoEntry c k then 0 else t.getD k 0 := by
    rw [← h]
    simp [List.getD_eq_getElem?_getD, List.mem_range.1 hk]
  rw [e]
  split <;> simp_all

/-- The filtered weightings are not changed by the filter. -/
theorem filterWeights_again (c : Cons) (coeff : ℚ) (hc : 0 ≤ coeff) (w W : List ℚ) (hw : w.length = 12) (hn : ∀ x ∈ w, 0 ≤ x)
    (h : filterWeights c coeff w = .ok (some W)) : W.length = 12 ∧ (∀ x ∈ W, 0 ≤ x) ∧ filterWeights c coeff W = .ok (some W) := by
  obtain ⟨hl, hnn, -⟩ := C65_filter_normalised c coeff hc w W hw hn h
  refine ⟨hl, hnn, ?_⟩
  rw [filterWeights_eq c coeff w hw, Except.ok.injEq] at h
  split at h
  · cases h
  rename_i h0
  have hS := raw_sum_pos c coeff hc w hn h0
  have h := Option.some.inj h
  set S := ∑ k ∈ Finset.range 12, rawWeight c coeff w k with hSdef
  have g : ∀ k < 12, W.getD k 0 = rawWeight c coeff w k / S := by
    intro k hk
    rw [← h]
    simp [List.getD_eq_getElem?_getD, hk]
  have e1 : ∀ k < 12, keptWeight c W k = keptWeight c w k / S := by
    intro k hk
    unfold keptWeight
    split
    · rw [zero_div]
    · rename_i hv
      rw [g k hk]
      conv_lhs => rw [rawWeight, if_neg (fun h => hv (Or.inl h)), if_neg (fun h => hv (Or.inr h))]
  have e2 : meanKept c W = meanKept c w / S := by
    unfold meanKept
    rw [Finset.sum_congr rfl (fun k hk => e1 k (Finset.mem_range.1 hk)), ← Finset.sum_div]
    have : (Finset.range 12).filter (fun k => keptWeight c W k ≠ 0) = (Finset.range 12).filter (fun k => keptWeight c w k ≠ 0) := by
      apply Finset.filter_congr
      intro k hk
      rw [e1 k (Finset.mem_range.1 hk)]
      simp [hS.ne']
    rw [this]
    ring
  have e3 : ∀ k < 12, rawWeight c coeff W k = rawWeight c coeff w k / S := by
    intro k hk
    by_cases hv : Vanish c k
    · unfold rawWeight; rw [if_pos hv, if_pos hv, zero_div]
    · by_cases ho : OopoEntry c k
      · unfold rawWeight; rw [if_neg hv, if_neg hv, if_pos ho, if_pos ho, e2]; ring
      · conv_lhs => rw [rawWeight, if_neg hv, if_neg ho]
        exact g k hk
  have e4 : ∑ k ∈ Finset.range 12, rawWeight c coeff W k = 1 := by
    rw [Finset.sum_congr rfl (fun k hk => e3 k (Finset.mem_range.1 hk)), ← Finset.sum_div, ← hSdef, div_self hS.ne']
  rw [filterWeights_eq c coeff W hl, if_neg, e4]
  · congr 2
    conv_rhs => rw [← h]
    apply List.map_congr_left
    intro k hk
    rw [e3 k (List.mem_range.1 hk), div_one]
  · intro hall
    apply h0
    intro k hk
    have := hall k hk
    rw [e1 k hk, div_eq_zero_iff] at this
    rcases this with this | this
    · exact this
    · exact absurd this hS.ne'

/-- The panel read back from the row of a saved panel: its filtered weightings become the initial ones; the area is only known from the lengths. -/
def readBack (hs : Bool) (P : SavedPanel) : Panel :=
  { P.panel with weightsIni := P.weights, area := if hs then P.panel.area else 0 }

/-- **C84.** The row written for a panel whose targets and weightings were filtered gives, when it is read, a panel with the same ID, neighbours,
ply count, middle ply, weighting and targets and, with the script of the horseshoe, the same area; the filters of the optimiser leave its targets and
its weightings as they were saved. -/
theorem C84_panel (hs : Bool) (c : Cons) (coeff : ℚ) (hc : 0 ≤ coeff) (a : PanelArgs) (ids : PanelIds) (P : SavedPanel)
    (h : preparePanel c coeff a ids = .ok P) (ht : a.target.length = 12) (hw : a.weights.length = 12) (hn : ids.neighbours ≠ [])
    (hl : hs = true → a.lengthX ≠ 0 ∧ a.lengthY ≠ 0) :
    ∃ s q, savePanel P = .ok s ∧ loadPanel hs c s = .ok (q, ids) ∧
      q.nPlies = P.panel.nPlies ∧ q.hasMiddle = P.panel.hasMiddle ∧ q.middle = P.panel.middle ∧ q.weighting = P.panel.weighting ∧
      q.target = P.panel.target ∧ q.area = (if hs then P.panel.area else 0) ∧
      filterTarget c q.target = .ok P.panel.target ∧ filterWeights c coeff q.weightsIni = .ok (some P.weights) ∧
      q = readBack hs P ∧ P.ids = ids ∧ s.lookup "Neighbour panel IDs" = some (.ints ids.neighbours) := by
  unfold preparePanel at h
  simp only [bind_ok] at h
  obtain ⟨p, hp, T, hT, o, ho, W, hW, hP⟩ := h
  have hP := (Except.ok.inj hP).symm
  have hso : o = some W := by
    cases o with
    | none => cases hW
    | some W' => cases Except.ok.inj hW; rfl
  subst hso
  obtain ⟨g1, g2, g3, g4, g5, g6, g7⟩ := (C65_constructor c.sym a p).1 hp
  have htp : p.target = a.target := by rw [g7]
  have hwp : p.weightsIni = a.weights := by rw [g7]
  rw [htp] at hT
  rw [hwp] at ho
  obtain ⟨k1, k2⟩ := filterTarget_again c _ _ ht hT
  obtain ⟨k3, k4, k5⟩ := filterWeights_again c coeff hc _ _ hw g6 ho
  obtain ⟨s, hs1, hs2, hs3⟩ := loadPanel_save hs c P (by rw [hP]; exact k1) (by rw [hP]; exact k3) (by rw [hP]; dsimp only; rw [hwp]; exact hw)
    (by rw [hP]; exact hl) (by rw [hP]; exact hn)
  have hload : mkPanel c.sym (savedPanelArgs hs P) = .ok (readBack hs P) := by
    rw [C65_constructor]
    have hnp : (P.panel.nPlies : Int) = a.nPlies := by
      rw [hP]; dsimp only; rw [g7]; dsimp only; omega
    refine ⟨by show 1 ≤ (P.panel.nPlies : Int); omega, le_refl _, ?_, ?_, ?_, ?_, ?_⟩
    · unfold savedPanelArgs
      cases hs
      · exact le_refl _
      · simp only [if_true]; rw [hP]; exact g3
    · unfold savedPanelArgs
      cases hs
      · exact le_refl _
      · simp only [if_true]; rw [hP]; exact g4
    · unfold savedPanelArgs
      dsimp only
      rw [hP]; dsimp only; rw [g7]; exact g5
    · unfold savedPanelArgs
      dsimp only
      rw [hP]; exact k4
    · unfold savedPanelArgs readBack
      dsimp only
      rw [hnp, hP]
      dsimp only
      rw [g7]
      cases hs
      · simp
      · have hl' := hl rfl
        have p1 : 0 < a.lengthX := lt_of_le_of_ne g3 (Ne.symm hl'.1)
        have p2 : 0 < a.lengthY := lt_of_le_of_ne g4 (Ne.symm hl'.2)
        simp [p1, p2]
  refine ⟨s, readBack hs P, hs1, ?_, rfl, rfl, rfl, rfl, rfl, rfl, ?_, ?_, rfl, ?_, ?_⟩
  · rw [hs3, hload, hP]; rfl
  · show filterTarget c P.panel.target = _
    rw [hP]; exact k2
  · show filterWeights c coeff P.weights = _
    rw [hP]; exact k5
  · rw [hP]
  · rw [hs2, hP]

theorem numericColumn_cons (s : Sheet) (rows : List Sheet) (l : String) (x : List Int) (h : s.lookup l = some (.ints x)) :
    numericColumn (s :: rows) l = (decide (x.length ≤ 1) && numericColumn rows l) := by
  unfold numericColumn
  rw [List.all_cons, h]

/-- The panels of a structure that was saved are all read back. -/
theorem panels_save (hs : Bool) (c : Cons) (coeff : ℚ) (hc : 0 ≤ coeff) (args : List (PanelArgs × PanelIds)) (Ps : List SavedPanel)
    (h : args.mapM (fun a => preparePanel c coeff a.1 a.2) = .ok Ps)
    (ha : ∀ a ∈ args, a.1.target.length = 12 ∧ a.1.weights.length = 12 ∧ a.2.neighbours ≠ [] ∧ (hs = true → a.1.lengthX ≠ 0 ∧ a.1.lengthY ≠ 0)) :
    ∃ rows, savePanels Ps = .ok rows ∧ rows.mapM (loadPanel hs c) = .ok (Ps.map (fun P => (readBack hs P, P.ids))) ∧
      numericColumn rows "Neighbour panel IDs" = args.all (fun a => decide (a.2.neighbours.length ≤ 1)) ∧
      Ps.map (fun P => P.ids) = args.map (fun a => a.2) := by
  induction args generalizing Ps with
  | nil =>
    have h := (Except.ok.inj h).symm
    subst h
    exact ⟨[], rfl, rfl, rfl, rfl⟩
  | cons a args ih =>
    rw [List.mapM_cons] at h
    simp only [bind_ok] at h
    obtain ⟨P, hP, Ps', hPs, h⟩ := h
    have h := (Except.ok.inj h).symm
    subst h
    obtain ⟨rows, r1, r2, r3, r4⟩ := ih Ps' hPs (fun b hb => ha b (List.mem_cons_of_mem _ hb))
    obtain ⟨h1, h2, h3, h4⟩ := ha a List.mem_cons_self
    obtain ⟨s, q, s1, s2, -, -, -, -, -, -, -, -, s3, s4, s5⟩ := C84_panel hs c coeff hc a.1 a.2 P hP h1 h2 h3 h4
    refine ⟨s :: rows, ?_, ?_, ?_, ?_⟩
    · unfold savePanels at r1 ⊢
      rw [List.mapM_cons, s1, r1]
      rfl
    · rw [List.mapM_cons, s2, r2, s3, ← s4]
      rfl
    · rw [numericColumn_cons s rows _ _ s5, r3, List.all_cons]
    · rw [List.map_cons, List.map_cons, s4, r4]

/-- **C84.** A structure saved with its panels is read back as the same structure, if every panel has a neighbour and one of them has several: the
panels are the ones saved, the ply counts, the middle plies, the thickest panels and the boundaries are the same, and so are the weights of the
boundaries if none were given.  The areas are the same with the script of the horseshoe, for panels with lengths. -/
theorem C84_structure (hs : Bool) (pick : List Nat → Nat) (hpick : ∀ l, l ≠ [] → pick l ∈ l) (c : Cons) (coeff : ℚ) (hc : 0 ≤ coeff)
    (args : List (PanelArgs × PanelIds)) (Ps : List SavedPanel) (w : Option (List ((Int × Int) × ℚ))) (m : MultiPanel)
    (h : args.mapM (fun a => preparePanel c coeff a.1 a.2) = .ok Ps)
    (hm : mkMultiPanel pick (Ps.map (fun P => (P.panel, P.ids))) w = .ok m)
    (ha : ∀ a ∈ args, a.1.target.length = 12 ∧ a.1.weights.length = 12 ∧ a.2.neighbours ≠ [] ∧ (hs = true → a.1.lengthX ≠ 0 ∧ a.1.lengthY ≠ 0))
    (h2 : ∃ a ∈ args, 2 ≤ a.2.neighbours.length) :
    ∃ rows m', savePanels Ps = .ok rows ∧ loadStructure hs pick c rows = .ok (Ps.map (fun P => (readBack hs P, P.ids)), m') ∧
      m' = { m with area := if hs then m.area else 0, areaPatches := if hs then m.areaPatches else 0, boundaryWeights := m'.boundaryWeights } ∧
      (w = none → m'.boundaryWeights = m.boundaryWeights) ∧
      ∀ b, m'.boundaryWeights.lookup b = if b ∈ m.boundaries then some 1 else none := by
  obtain ⟨rows, r1, r2, r3, r4⟩ := panels_save hs c coeff hc args Ps h ha
  rw [mkMultiPanel_iff] at hm
  obtain ⟨m1, m2, m3, m4, m5, m6, m7, m8, m9, m10, m11⟩ := hm
  simp only [List.map_map] at m1 m2 m3 m4 m5 m6 m7 m8 m9 m10 m11
  have hbd : ∃ bw, calcPanelBoundaryDict pick (Ps.map (fun P => P.ids)) none = .ok (m.boundaries, bw) := by
    have e : Ps.map ((fun p : Panel × PanelIds => p.2) ∘ fun P => (P.panel, P.ids)) = Ps.map (fun P => P.ids) := rfl
    rw [e] at m4
    obtain ⟨c1, c2, c3, -⟩ := (boundaryDict_ok_iff pick hpick (Ps.map (fun P => P.ids)) w).1 ⟨_, m4⟩
    obtain ⟨r, hr⟩ := (boundaryDict_ok_iff pick hpick (Ps.map (fun P => P.ids)) none).2 ⟨c1, c2, c3, fun d hd => by cases hd⟩
    refine ⟨r.2, ?_⟩
    rw [hr]
    unfold calcPanelBoundaryDict at m4 hr
    simp only [bind_ok] at m4 hr
    obtain ⟨dict, hd, dirs, hdirs, u, hu, bw, hbw, e1⟩ := m4
    obtain ⟨dict', hd', dirs', hdirs', u', hu', bw', hbw', e2⟩ := hr
    rw [hd] at hd'
    cases Except.ok.inj hd'
    rw [hdirs] at hdirs'
    cases Except.ok.inj hdirs'
    have e1 := (Prod.mk.inj (Except.ok.inj e1)).1
    have e2 := Except.ok.inj e2
    rw [← e2, ← e1]
  obtain ⟨bw, hbw⟩ := hbd
  let m' : MultiPanel :=
    { m with area := if hs then m.area else 0, areaPatches := if hs then m.areaPatches else 0, boundaryWeights := bw }
  have hload : mkMultiPanel pick (Ps.map (fun P => (readBack hs P, P.ids))) none = .ok m' := by
    rw [mkMultiPanel_iff]
    simp only [List.map_map]
    refine ⟨m1, m2, ?_, hbw, ?_, ?_, m7, m8, m9, m10, m11⟩
    · have one : ∀ (l : List SavedPanel) (n i : Nat), oneThickest n i (l.map ((fun p : Panel × PanelIds => p.1) ∘ fun P => (readBack hs P, P.ids))) =
          oneThickest n i (l.map ((fun p : Panel × PanelIds => p.1) ∘ fun P => (P.panel, P.ids))) := by
        intro l n
        induction l with
        | nil => intro i; rfl
        | cons P l ih =>
          intro i
          show (if P.panel.nPlies = n then Except.ok i else oneThickest n (i + 1) _) = (if P.panel.nPlies = n then Except.ok i else oneThickest n (i + 1) _)
          rw [ih]
      rw [one]
      exact m3
    · show (if hs then m.area else 0) = _
      cases hs
      · have : Ps.map ((fun p : Panel × PanelIds => p.1.area) ∘ fun P => (readBack false P, P.ids)) = Ps.map (fun _ => (0 : ℚ)) := rfl
        rw [this]
        simp
      · exact m5
    · show (if hs then m.areaPatches else 0) = _
      cases hs
      · have : Ps.map ((fun p : Panel × PanelIds => p.1.area * (p.1.nPlies : ℚ)) ∘ fun P => (readBack false P, P.ids)) = Ps.map (fun _ => (0 : ℚ)) := by
          apply List.map_congr_left
          intro P _
          show (0 : ℚ) * _ = 0
          rw [zero_mul]
        rw [this]
        simp
      · exact m6
  refine ⟨rows, m', r1, ?_, rfl, ?_, ?_⟩
  · unfold loadStructure
    rw [r3, if_neg, r2]
    · show (mkMultiPanel _ _ _ >>= _) = _
      rw [hload]
      rfl
    · intro hall
      obtain ⟨a, haa, hlen⟩ := h2
      have := List.all_eq_true.1 hall a haa
      simp only [decide_eq_true_eq] at this
      omega
  · rintro rfl
    have : calcPanelBoundaryDict pick (Ps.map (fun P => P.ids)) none = .ok (m.boundaries, m.boundaryWeights) := m4
    rw [hbw] at this
    exact (Prod.mk.inj (Except.ok.inj this)).2
  · exact C48_default_weights pick hpick _ _ _ hbw

/-- **C84, violation.** The areas of the panels are written but never read: with the script of the stacking-sequence tables the structure that is
read weighs nothing, whatever the areas were.  (The weights given to the boundaries are lost too: by C84_structure each is read as 1.) -/
theorem C84_area_violation (c : Cons) (coeff : ℚ) (hc : 0 ≤ coeff) (args : List (PanelArgs × PanelIds)) (Ps : List SavedPanel)
    (h : args.mapM (fun a => preparePanel c coeff a.1 a.2) = .ok Ps)
    (ha : ∀ a ∈ args, a.1.target.length = 12 ∧ a.1.weights.length = 12 ∧ a.2.neighbours ≠ []) (density : ℚ) :
    ∃ rows ps, savePanels Ps = .ok rows ∧ rows.mapM (loadPanel false c) = .ok ps ∧ structureWeight density (ps.map (fun p => p.1)) = 0 := by
  obtain ⟨rows, r1, r2, -⟩ := panels_save false c coeff hc args Ps h (fun a haa => ⟨(ha a haa).1, (ha a haa).2.1, (ha a haa).2.2, by simp⟩)
  refine ⟨rows, _, r1, r2, ?_⟩
  unfold structureWeight
  rw [List.map_map, List.map_map]
  have : Ps.map (((fun (p : Panel) => p.area * (p.nPlies : ℚ)) ∘ fun p : Panel × PanelIds => p.1) ∘ fun P => (readBack false P, P.ids)) =
      Ps.map (fun _ => (0 : ℚ)) := by
    apply List.map_congr_left
    intro P _
    show (0 : ℚ) * _ = 0
    rw [zero_mul]
  rw [this]
  simp

/-- **C84, violation.** The file of a structure in which every panel has exactly one neighbour (two panels side by side) cannot be read. -/
theorem C84_two_panels_violation (hs : Bool) (pick : List Nat → Nat) (c : Cons) (coeff : ℚ) (hc : 0 ≤ coeff) (args : List (PanelArgs × PanelIds))
    (Ps : List SavedPanel) (h : args.mapM (fun a => preparePanel c coeff a.1 a.2) = .ok Ps)
    (ha : ∀ a ∈ args, a.1.target.length = 12 ∧ a.1.weights.length = 12 ∧ a.2.neighbours.length = 1 ∧ (hs = true → a.1.lengthX ≠ 0 ∧ a.1.lengthY ≠ 0)) :
    ∃ rows, savePanels Ps = .ok rows ∧ ∃ e, loadStructure hs pick c rows = .error e := by
  obtain ⟨rows, r1, -, r3, -⟩ := panels_save hs c coeff hc args Ps h (fun a haa => ⟨(ha a haa).1, (ha a haa).2.1, (by
    intro hn; have := (ha a haa).2.2.1; rw [hn] at this; cases this), (ha a haa).2.2.2⟩)
  refine ⟨rows, r1, .exc "object has no attribute 'split'", ?_⟩
  · unfold loadStructure
    rw [r3, if_pos]
    · rfl
    · rw [List.all_eq_true]
      intro a haa
      simp [(ha a haa).2.2.1]

/-- **C84, violation.** The row written for a panel that names no neighbour (a single panel, for example) cannot be read. -/
theorem C84_no_neighbour_violation (hs : Bool) (c : Cons) (P : SavedPanel) (s : Sheet) (h : savePanel P = .ok s) (hn : P.ids.neighbours = []) :
    ∃ e, loadPanel hs c s = .error e := by
  have hl : s.ints "Neighbour panel IDs" = .error (.exc "'float' object has no attribute 'split'") := by
    unfold savePanel at h
    simp only [bind_ok] at h
    obtain ⟨t, -, w0, -, w, -, h⟩ := h
    have h := (Except.ok.inj h).symm
    subst h
    rw [hn]
    simp [Sheet.ints, Sheet.cell, List.lookup, Cell.asInts, bind, Except.bind]
  cases hr : loadPanel hs c s with
  | error e => exact ⟨e, rfl⟩
  | ok r =>
    unfold loadPanel at hr
    simp only [bind_ok] at hr
    obtain ⟨_, _, _, _, _, _, _, _, _, _, nb, hnb, _⟩ := hr
    rw [hl] at hnb
    cases hnb

/-- **C84.** The other cells of the sheet Multipanel: the number of panels, the largest ply count, and the position of the first panel that has it. -/
theorem C84_multipanel_sheet (pick : List Nat → Nat) (panels : List (Panel × PanelIds)) (w : Option (List ((Int × Int) × ℚ))) (m : MultiPanel)
    (hm : mkMultiPanel pick panels w = .ok m) :
    (saveMultipanelSheet panels.length m).lookup "Number of panels" = some (.num (panels.length : ℚ)) ∧
    (∃ p ∈ panels, (saveMultipanelSheet panels.length m).lookup "Number of plies max" = some (.num (p.1.nPlies : ℚ)) ∧
      ∀ q ∈ panels, q.1.nPlies ≤ p.1.nPlies) ∧
    (∃ (i : Nat) (p : Panel × PanelIds), (saveMultipanelSheet panels.length m).lookup "Index of one thickest panel" = some (.num (i : ℚ)) ∧
      panels[i]? = some p ∧ (∀ q ∈ panels, q.1.nPlies ≤ p.1.nPlies) ∧
      ∀ j, j < i → ∃ q, panels[j]? = some q ∧ q.1.nPlies < p.1.nPlies) ∧
    (saveMultipanelSheet panels.length m).lookup "Area of all patches" = some (.num (panels.map (fun p => p.1.area * (p.1.nPlies : ℚ))).sum) := by
  obtain ⟨-, ⟨p, hp, hpn⟩, hb, ⟨q, hq, hqn⟩, hbefore, -⟩ := C71_extrema pick panels w m hm
  obtain ⟨-, -, -, -, -, m6, -⟩ := (mkMultiPanel_iff _ _ _ _).1 hm
  refine ⟨by simp [saveMultipanelSheet, List.lookup], ⟨p, hp, by simp [saveMultipanelSheet, List.lookup, hpn], fun r hr => by
    rw [hpn]; exact (hb r hr).2⟩, ⟨m.indThick, q, by simp [saveMultipanelSheet, List.lookup], hq, fun r hr => by rw [hqn]; exact (hb r hr).2, ?_⟩, by
    simp [saveMultipanelSheet, List.lookup, m6]⟩
  intro j hj
  rw [hqn]
  exact hbefore j hj

/-- **C84, violation.** The cell 'Area' of the sheet Multipanel is the area of all the plies, not the area of the structure: both agree only if every
panel with an area has one ply. -/
theorem C84_area_row_violation (sym : Bool) (pick : List Nat → Nat) (panels : List (Panel × PanelIds)) (w : Option (List ((Int × Int) × ℚ))) (m : MultiPanel)
    (hm : mkMultiPanel pick panels w = .ok m) (hp : ∀ p ∈ panels, ∃ a, mkPanel sym a = .ok p.1) (n : Nat) :
    (saveMultipanelSheet n m).lookup "Area" = some (.num (panels.map (fun p => p.1.area * (p.1.nPlies : ℚ))).sum) ∧
    m.area = (panels.map (fun p => p.1.area)).sum ∧
    ((saveMultipanelSheet n m).lookup "Area" = some (.num m.area) ↔ ∀ p ∈ panels, p.1.area = 0 ∨ p.1.nPlies = 1) := by
  rw [mkMultiPanel_iff] at hm
  obtain ⟨-, -, -, -, m5, m6, -⟩ := hm
  have e : (saveMultipanelSheet n m).lookup "Area" = some (.num m.areaPatches) := by simp [saveMultipanelSheet, List.lookup]
  rw [e, ← m6]
  refine ⟨rfl, m5, ?_⟩
  simp only [Option.some.injEq, Cell.num.injEq]
  rw [m5, m6]
  clear e m5 m6
  have hpos : ∀ p ∈ panels, 0 ≤ p.1.area ∧ 1 ≤ p.1.nPlies := by
    intro p hpp
    obtain ⟨a, ha⟩ := hp p hpp
    obtain ⟨g1, g2, g3, g4, -, -, g7⟩ := (C65_constructor sym a p.1).1 ha
    rw [g7]
    dsimp only
    refine ⟨?_, by omega⟩
    split
    · exact mul_nonneg g3 g4
    · exact g2
  have key : ∀ l : List (Panel × PanelIds), (∀ p ∈ l, 0 ≤ p.1.area ∧ 1 ≤ p.1.nPlies) →
      (l.map (fun p => p.1.area)).sum ≤ (l.map (fun p => p.1.area * (p.1.nPlies : ℚ))).sum ∧
      ((l.map (fun p => p.1.area * (p.1.nPlies : ℚ))).sum = (l.map (fun p => p.1.area)).sum ↔ ∀ p ∈ l, p.1.area = 0 ∨ p.1.nPlies = 1) := by
    intro l
    induction l with
    | nil => intro _; simp
    | cons p l ih =>
      intro hl
      obtain ⟨i1, i2⟩ := ih (fun q hq => hl q (List.mem_cons_of_mem _ hq))
      obtain ⟨p1, p2⟩ := hl p List.mem_cons_self
      have p2' : (1 : ℚ) ≤ p.1.nPlies := by exact_mod_cast p2
      have hle : p.1.area ≤ p.1.area * (p.1.nPlies : ℚ) := le_mul_of_one_le_right p1 p2'
      simp only [List.map_cons, List.sum_cons, List.forall_mem_cons]
      refine ⟨add_le_add hle i1, ?_⟩
      rw [← i2]
      constructor
      · intro hx
        have h1 : p.1.area * (p.1.nPlies : ℚ) = p.1.area := by linarith
        refine ⟨?_, by linarith⟩
        by_cases h0 : p.1.area = 0
        · exact Or.inl h0
        · right
          have : (p.1.nPlies : ℚ) = 1 := mul_left_cancel₀ h0 (by rw [h1, mul_one])
          exact_mod_cast this
      · rintro ⟨h1 | h1, h2⟩
        · rw [h1, h2, zero_mul]
        · rw [h1, h2]; simp
  exact (key panels hpos).2

/-! ### The hypotheses are met -/

/-- A set of constraints with the 10% rule on ply percentages. -/
def fileArgs : ConsArgs where
  sym := true
  bal := true
  damTol := true
  damTolRule := 1
  rule10 := true
  percent0 := 10
  percent45 := 10
  percent90 := 10
  percent135 := 10
  diso := true
  contig := true
  nContig := 5
  setOfAngles := [0, 45, 90, -45]
  pdlSpacing := true
  minDrop := 2

/-- Three panels in a row. -/
def filePanels : List (PanelArgs × PanelIds) :=
  [({ nPlies := 16, target := List.replicate 12 (1 / 5), lengthX := 2, lengthY := 3 }, ⟨1, [2]⟩),
   ({ nPlies := 13, target := List.replicate 12 (1 / 4), lengthX := 1, lengthY := 3 }, ⟨2, [1, 3]⟩),
   ({ nPlies := 12, target := List.replicate 12 0, lengthX := 1, lengthY := 1, weighting := 2 }, ⟨3, [2]⟩)]

/-- The result exists and passes a test. -/
def okThat {α : Type} (x : Py α) (P : α → Bool) : Bool :=
  match x with
  | .ok c => P c
  | .error _ => false

theorem of_okThat {α : Type} {x : Py α} {P : α → Bool} (h : okThat x P = true) : ∃ c, x = .ok c ∧ P c = true := by
  cases x with
  | error e => cases h
  | ok c => exact ⟨c, rfl, h⟩

/-- C84 applies to a structure of three panels under all the rules, whose file is read back. -/
example : ∃ c Ps m, mkConstraints fileArgs = .ok c ∧ fileArgs.calcCombine45_135 = true ∧ c.p45 = 1 / 10 ∧
    filePanels.mapM (fun a => preparePanel c 1 a.1 a.2) = .ok Ps ∧
    mkMultiPanel (fun l => l.headD 0) (Ps.map (fun P => (P.panel, P.ids))) none = .ok m ∧ m.area = 10 ∧
    loadConstraints (saveConstraints c) = .ok c ∧
    ∃ rows qs, savePanels Ps = .ok rows ∧ loadStructure true (fun l => l.headD 0) c rows = .ok (qs, m) := by
  have h0 : okThat (mkConstraints fileArgs) (fun c => decide (c.p45 = 1 / 10 ∧ c.rule10 = true) &&
    okThat (filePanels.mapM (fun a => preparePanel c 1 a.1 a.2)) (fun Ps =>
      okThat (mkMultiPanel (fun l => l.headD 0) (Ps.map (fun P => (P.panel, P.ids))) none) (fun m => decide (m.area = 10)))) = true := by
    decide +kernel
  obtain ⟨c, hc, h1⟩ := of_okThat h0
  simp only [Bool.and_eq_true, decide_eq_true_eq] at h1
  obtain ⟨⟨h2, h3⟩, h4⟩ := h1
  obtain ⟨Ps, hPs, h5⟩ := of_okThat h4
  obtain ⟨m, hm, h6⟩ := of_okThat h5
  have ha : ∀ a ∈ filePanels, a.1.target.length = 12 ∧ a.1.weights.length = 12 ∧ a.2.neighbours ≠ [] ∧ (true = true → a.1.lengthX ≠ 0 ∧ a.1.lengthY ≠ 0) := by
    decide +kernel
  obtain ⟨rows, m', r1, r2, r3, r4, -⟩ := C84_structure true (fun l => l.headD 0) (by intro l hl; cases l; exact absurd rfl hl; simp) c 1 (by norm_num)
    filePanels Ps none m hPs hm ha (by decide +kernel)
  have e : m' = m := by
    rw [r3]
    simp only [if_true]
    rw [r4 rfl]
  refine ⟨c, Ps, m, hc, rfl, h2, hPs, hm, by simpa using h6, ?_, rows, _, r1, by rw [← e]; exact r2⟩
  have hab : (c.rule10 && c.rule10Abdalla) = c.rule10Abdalla := by rw [h3]; rfl
  rw [C84_constraints fileArgs c hc rfl, hab]

/-- C84: a material and penalty coefficients to which the theorems apply. -/
example : (∃ m, mkMaterial (K := ℚ) 130 9 (3 / 10) 4 0 300 (1 / 5000) = .ok m ∧ m.densityVolume = 1500000) ∧
    (∃ m, mkMaterial (K := ℚ) 130 9 (3 / 10) 4 1 300 (1 / 5000) = .ok m ∧ (1 : ℚ) ≠ 300 / (1 / 5000)) ∧
    ∃ c o, mkConstraints fileArgs = .ok c ∧ c.bal = true ∧ mkObjFunction c.objSwitches 1 2 3 4 5 6 1 = .ok o ∧ o.cBal ≠ 1 := by
  have h1 : okThat (mkMaterial (K := ℚ) 130 9 (3 / 10) 4 0 300 (1 / 5000)) (fun m => decide (m.densityVolume = 1500000)) = true := by decide +kernel
  have h2 : okThat (mkMaterial (K := ℚ) 130 9 (3 / 10) 4 1 300 (1 / 5000)) (fun _ => true) = true := by decide +kernel
  have h3 : okThat (mkConstraints fileArgs) (fun c => c.bal && okThat (mkObjFunction c.objSwitches 1 2 3 4 5 6 1) (fun o => decide (o.cBal ≠ 1))) = true := by
    decide +kernel
  obtain ⟨m, hm, e⟩ := of_okThat h1
  obtain ⟨m2, hm2, -⟩ := of_okThat h2
  obtain ⟨c, hc, h4⟩ := of_okThat h3
  simp only [Bool.and_eq_true] at h4
  obtain ⟨o, ho, e2⟩ := of_okThat h4.2
  exact ⟨⟨m, hm, by simpa using e⟩, ⟨m2, hm2, by norm_num⟩, c, o, hc, h4.1, ho, by simpa using e2⟩

end Bella
