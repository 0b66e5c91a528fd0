import Verif.Spec.LaylaInput
import Verif.Props.InputFile
import Verif.Props.LaylaConstraints
import Verif.Props.LaylaParameters
/-
C88: the sheets written by LAYLA (src/LAYLA_V02/save_set_up.py) record the constraints and the parameters that were used.
-/
namespace Bella
open Spec

/-! ### The constraints -/

/-- The arguments recorded on the saved sheet. -/
def laylaSavedArgs (c : Cons) : LaylaConsArgs :=
  { sym := c.sym, bal := c.bal, ipo := c.ipo, oopo := c.oopo, damTol := c.damTol, damTolRule := damTolRuleOf c.damTolAttr
    rule10 := c.rule10
    percent0 := if c.rule10 then c.p0 * 100 else 0, percent45 := if c.rule10 then c.p45 * 100 else 0
    percent90 := if c.rule10 then c.p90 * 100 else 0, percent135 := if c.rule10 then c.p135 * 100 else 0
    percent45_135 := if c.rule10 then c.p45_135 * 100 else 0
    diso := c.diso, deltaAngle := c.deltaAngle, contig := c.contig, nContig := c.nContigC, setOfAngles := c.angles }

theorem laylaConsOf_save (c : Cons) (n : Option Cons) (h : c.angles ≠ []) :
    laylaConsOf (saveLaylaConstraints c n) = .ok (laylaSavedArgs c) := by
  have e : Cell.asInts (.ints c.angles) = .ok c.angles := by
    cases hc : c.angles with
    | nil => exact absurd hc h
    | cons x l => rfl
  unfold laylaConsOf saveLaylaConstraints saveLaylaRules
  simp [Sheet.flag, Sheet.int, Sheet.float, Sheet.ints, Sheet.cell, List.lookup, Cell.asFlag, Cell.asInt, Cell.asFloat, savedLaylaPercent,
    bind, Except.bind, truncRat_int, truncRat_nat, e, pure, Except.pure, laylaSavedArgs]

theorem laylaPercentages_save (a a' : LaylaConsArgs) (p : Percents) (hp : laylaPercentages a = .ok p) (hr : a'.rule10 = a.rule10)
    (e0 : a'.percent0 = if a.rule10 then p.p0 * 100 else 0) (e1 : a'.percent45 = if a.rule10 then p.p45 * 100 else 0)
    (e2 : a'.percent90 = if a.rule10 then p.p90 * 100 else 0) (e3 : a'.percent135 = if a.rule10 then p.p135 * 100 else 0)
    (e4 : a'.percent45_135 = if a.rule10 then p.p45_135 * 100 else 0) :
    ((a.rule10 = true → a.percent45 + a.percent135 ≤ 100) → laylaPercentages a' = .ok p) ∧
    ((a.rule10 = true ∧ 100 < a.percent45 + a.percent135) → ∃ m, laylaPercentages a' = .error (.exc m)) := by
  obtain ⟨h1, h2, h3, h4, h5, rfl⟩ := laylaPercentages_inv a p hp
  unfold laylaPercentages badPercent
  simp only [Bool.or_eq_true, decide_eq_true_eq, hr]
  rcases Bool.eq_false_or_eq_true a.rule10 with r | r
  · simp only [r, if_true, forall_const, true_and] at e0 e1 e2 e3 e4 ⊢
    have f0 : a'.percent0 = a.percent0 := by rw [e0]; ring
    have f1 : a'.percent45 = a.percent45 := by rw [e1]; ring
    have f2 : a'.percent90 = a.percent90 := by rw [e2]; ring
    have f3 : a'.percent135 = a.percent135 := by rw [e3]; ring
    have f4 : a'.percent45_135 = max a.percent45_135 (a.percent45 + a.percent135) := by rw [e4]; ring
    simp only [f0, f1, f2, f3, f4]
    rw [if_neg (by push Not; exact h1), if_neg (by push Not; exact h2), if_neg (by push Not; exact h3), if_neg (by push Not; exact h4)]
    constructor
    · intro hs
      rw [if_neg (by push Not; exact ⟨le_trans h5.1 (le_max_left _ _), max_le h5.2 hs⟩),
        max_eq_left (le_max_right a.percent45_135 (a.percent45 + a.percent135))]
    · intro hs
      rw [if_pos (Or.inr (lt_of_lt_of_le hs (le_max_right _ _)))]
      exact ⟨_, rfl⟩
  · simp only [r, Bool.false_eq_true, if_false, false_and, false_implies, and_true, forall_const] at e0 e1 e2 e3 e4 ⊢
    simp only [e0, e1, e2, e3, e4]
    norm_num

/-- **C88.** The sheet Constraints records the constraints: constraints made again from what it says are the same, whatever the
constraints to be broken that are written after them, as soon as the shares asked for +45 and -45 degrees are together at most 100 %. -/
theorem C88_constraints (a : LaylaConsArgs) (c : Cons) (n : Option Cons) (h : mkLaylaConstraints a = .ok c)
    (hs : a.rule10 = true → a.percent45 + a.percent135 ≤ 100) :
    ∃ a', laylaConsOf (saveLaylaConstraints c n) = .ok a' ∧ mkLaylaConstraints a' = .ok c := by
  obtain ⟨b, p, hb, hp, hc⟩ := (C76_agrees a c).1 h
  obtain ⟨p0, hp0, h1, h2, h3, h4, h5, h6, h7, h8, h9, hbe⟩ := mkConstraints_inv _ b hb
  rw [bella_percents] at hp0
  cases Except.ok.inj hp0
  simp only [LaylaConsArgs.toBella] at h1 h2 h3 h4 h5 h6 h7 h8 h9 hbe
  have hang : c.angles = npUnique a.setOfAngles := by rw [hc, hbe]
  have hne : c.angles ≠ [] := by
    rw [hang]; intro hn; rw [hn] at h7; exact h7 rfl
  refine ⟨_, laylaConsOf_save c n hne, ?_⟩
  have hp' : laylaPercentages (laylaSavedArgs c) = .ok p := by
    refine (laylaPercentages_save a (laylaSavedArgs c) p hp ?_ ?_ ?_ ?_ ?_ ?_).1 hs <;> simp [laylaSavedArgs, hc, hbe]
  have hu : npUnique (laylaSavedArgs c).setOfAngles = npUnique a.setOfAngles := by
    show npUnique c.angles = _
    rw [hang, npUnique_npUnique]
  have hd : c.angles.dedup.length = c.angles.length := by
    rw [hang, (nodup_npUnique _).dedup]
  obtain ⟨b', hb'⟩ := mkConstraints_of (laylaSavedArgs c).toBella _ (bella_percents _) (by
      intro hdt
      have hdt' : a.damTol = true := by simpa [LaylaConsArgs.toBella, laylaSavedArgs, hc, hbe] using hdt
      simpa [LaylaConsArgs.toBella, laylaSavedArgs, hc, hbe, damTolRuleOf, hdt'] using h1 hdt')
    (Or.inl rfl)
    (by
      rintro ⟨g1, g2⟩
      have g1' : a.contig = true := by simpa [LaylaConsArgs.toBella, laylaSavedArgs, hc, hbe] using g1
      simp only [LaylaConsArgs.toBella, laylaSavedArgs, hc, hbe, g1', if_true] at g2
      exact h3 ⟨g1', g2⟩)
    (by show ∀ x ∈ npUnique (laylaSavedArgs c).setOfAngles, _; rw [hu]; exact h4)
    (by
      show (laylaSavedArgs c).rule10 = true → 0 ∈ npUnique (laylaSavedArgs c).setOfAngles ∧ 45 ∈ npUnique (laylaSavedArgs c).setOfAngles ∧
        90 ∈ npUnique (laylaSavedArgs c).setOfAngles ∧ -45 ∈ npUnique (laylaSavedArgs c).setOfAngles
      rw [hu]; intro hr; exact h5 (by simpa [laylaSavedArgs, hc, hbe] using hr))
    (by show ∀ x ∈ npUnique (laylaSavedArgs c).setOfAngles, _ → _ ∈ npUnique (laylaSavedArgs c).setOfAngles; rw [hu]; exact h6)
    (by show mkAnglesBal (npUnique (laylaSavedArgs c).setOfAngles) (mkIndAngles (npUnique (laylaSavedArgs c).setOfAngles)) ≠ []; rw [hu]; exact h7)
    hd (le_refl _)
  refine (C76_agrees _ c).2 ⟨b', p, hb', hp', ?_⟩
  obtain ⟨p', hq, _, _, _, _, _, _, _, _, _, e⟩ := mkConstraints_inv _ b' hb'
  rw [bella_percents] at hq
  cases Except.ok.inj hq
  have hdl : (laylaSavedArgs c).setOfAngles.dedup.length = a.setOfAngles.dedup.length := by
    show c.angles.dedup.length = _
    rw [hd, hang, length_npUnique]
  simp only [LaylaConsArgs.toBella, hu, hdl] at e
  rw [e]
  rcases Bool.eq_false_or_eq_true a.damTol with d | d <;>
    rcases Bool.eq_false_or_eq_true a.contig with k | k <;> rcases Bool.eq_false_or_eq_true a.diso with s | s <;>
    rcases Bool.eq_false_or_eq_true a.bal with v | v <;>
    simp [hc, hbe, laylaSavedArgs, damTolRuleOf, d, k, s, v]

/-- C88, violation: with a total above 100 % for +45 and -45 degrees, which the constructor accepts, the sheet records a share for
+-45 degrees that the constructor refuses. -/
theorem C88_share_violation (a : LaylaConsArgs) (c : Cons) (n : Option Cons) (h : mkLaylaConstraints a = .ok c)
    (hr : a.rule10 = true) (hs : 100 < a.percent45 + a.percent135) :
    ∃ a', laylaConsOf (saveLaylaConstraints c n) = .ok a' ∧ ∃ e, mkLaylaConstraints a' = .error e := by
  obtain ⟨b, p, hb, hp, hc⟩ := (C76_agrees a c).1 h
  obtain ⟨p0, hp0, h1, h2, h3, h4, h5, h6, h7, h8, h9, hbe⟩ := mkConstraints_inv _ b hb
  have hang : c.angles = npUnique a.setOfAngles := by rw [hc, hbe]; rfl
  have hne : c.angles ≠ [] := by
    rw [hang]; intro hn
    have : npUnique a.toBella.setOfAngles = [] := hn
    rw [this] at h7; exact h7 rfl
  refine ⟨_, laylaConsOf_save c n hne, ?_⟩
  obtain ⟨m, hm⟩ := (laylaPercentages_save a (laylaSavedArgs c) p hp
    (by simp [laylaSavedArgs, hc, hbe, LaylaConsArgs.toBella]) (by simp [laylaSavedArgs, hc, hbe, LaylaConsArgs.toBella])
    (by simp [laylaSavedArgs, hc, hbe, LaylaConsArgs.toBella]) (by simp [laylaSavedArgs, hc, hbe, LaylaConsArgs.toBella])
    (by simp [laylaSavedArgs, hc, hbe, LaylaConsArgs.toBella]) (by simp [laylaSavedArgs, hc, hbe, LaylaConsArgs.toBella])).2 ⟨hr, hs⟩
  cases hm' : mkLaylaConstraints (laylaSavedArgs c) with
  | error e => exact ⟨e, rfl⟩
  | ok c' =>
    obtain ⟨_, _, _, hq, _⟩ := (C76_agrees _ c').1 hm'
    rw [hm] at hq
    cases hq

/-- **C88.** The rules to be broken are recorded when they are on, with their limits, and only then. -/
theorem C88_not_constraints (a an : LaylaConsArgs) (c n : Cons) (h : mkLaylaConstraints a = .ok c) (hn : mkLaylaConstraints an = .ok n) :
    let s := saveLaylaConstraints c (some n)
    s.lookup "No diso !" = (if an.diso then some (.flag true) else none) ∧
    s.lookup "delta_angle (no)" = (if an.diso then some (.num an.deltaAngle) else none) ∧
    s.lookup "No contig !" = (if an.contig then some (.flag true) else none) ∧
    s.lookup "n_contig (no)" = (if an.contig then some (.num an.nContig) else none) ∧
    s.lookup "No balance !" = (if an.bal then some (.flag true) else none) ∧
    s.lookup "No in-plane orthotropy !" = (if an.bal || an.ipo then some (.flag true) else none) ∧
    s.lookup "No 10% rule !" = (if an.rule10 then some (.flag true) else none) ∧
    s.lookup "percent_0 (no)" = (if an.rule10 then some (.num an.percent0) else none) ∧
    s.lookup "percent_45 (no)" = (if an.rule10 then some (.num an.percent45) else none) ∧
    s.lookup "percent_90 (no)" = (if an.rule10 then some (.num an.percent90) else none) ∧
    s.lookup "percent_-45 (no)" = (if an.rule10 then some (.num an.percent135) else none) ∧
    s.lookup "percent_+-45 (no)" =
      (if an.rule10 then some (.num (max an.percent45_135 (an.percent45 + an.percent135))) else none) := by
  obtain ⟨b, p, hb, hp, hc⟩ := (C76_agrees an n).1 hn
  obtain ⟨_, _, _, _, _, _, _, _, _, _, _, hbe⟩ := mkConstraints_inv _ b hb
  obtain ⟨_, _, _, _, _, hpe⟩ := laylaPercentages_inv an p hp
  simp only [LaylaConsArgs.toBella] at hbe
  have f : ∀ x : ℚ, 100 * (x / 100) = x := fun x => by ring
  intro s
  have hs : s = saveLaylaRules c ++ saveLaylaNot n := rfl
  rw [hs]
  unfold saveLaylaRules saveLaylaNot
  have d1 : n.diso = an.diso := by rw [hc, hbe]
  have d2 : n.contig = an.contig := by rw [hc, hbe]
  have d3 : n.bal = an.bal := by rw [hc, hbe]
  have d4 : n.ipo = (an.bal || an.ipo) := by rw [hc]
  have d5 : n.rule10 = an.rule10 := by rw [hc, hbe]
  have g1 : an.diso = true → n.deltaAngle = an.deltaAngle := by intro g; rw [hc, hbe]; simp [g]
  have g2 : an.contig = true → n.nContigC = an.nContig := by intro g; rw [hc, hbe]; simp [g]
  have g3 : an.rule10 = true → n.p0 = an.percent0 / 100 ∧ n.p45 = an.percent45 / 100 ∧ n.p90 = an.percent90 / 100 ∧
      n.p135 = an.percent135 / 100 ∧ n.p45_135 = max an.percent45_135 (an.percent45 + an.percent135) / 100 := by
    intro g; rw [hc, hpe]; simp [g]
  rw [d1, d2, d3, d4, d5]
  clear hc hbe hpe hs hb hn hp
  rcases Bool.eq_false_or_eq_true an.diso with d | d <;> rcases Bool.eq_false_or_eq_true an.contig with k | k <;>
    rcases Bool.eq_false_or_eq_true an.bal with v | v <;> rcases Bool.eq_false_or_eq_true an.ipo with w | w <;>
    rcases Bool.eq_false_or_eq_true an.rule10 with r | r <;>
    simp [d, k, v, w, r, List.lookup, g1, g2, g3, f]

/-! ### The parameters -/

theorem truncQ_int (z : Int) : truncQ (z : ℚ) = z := by
  unfold truncQ
  split
  · exact Rat.floor_intCast z
  · exact Rat.ceil_intCast z

theorem npMul_ok_length {a b l : List ℚ} (h : npMul a b = .ok l) (hb : 2 ≤ b.length) :
    (a.length = b.length ∧ l.length = b.length) ∨ (a.length = 1 ∧ l.length = b.length) := by
  unfold npMul at h
  split at h
  · rename_i e
    cases Except.ok.inj h
    left
    exact ⟨e, by simp [e]⟩
  · split at h
    · cases Except.ok.inj h
      right
      simp
    · simp at hb
    · cases h

theorem npSets_len (k : List Nat) (x : ℚ) : ∀ (l r : List ℚ), npSets l k x = .ok r → r.length = l.length := by
  induction k with
  | nil => intro l r h; simp [npSets] at h; cases h; rfl
  | cons i t ih =>
    intro l r h
    simp only [npSets, List.foldlM_cons, bind_iff] at h
    obtain ⟨m, hm, h⟩ := h
    rw [ih m r h]
    unfold npSet at hm
    split at hm
    · cases Except.ok.inj hm; simp
    · cases hm

theorem laylaWeights_twelve {c : Cons} {sw : Bool} {ci co : ℚ} {sens mask : List ℚ} {r : Option (List ℚ) × List ℚ}
    (h : laylaWeights c sw ci co sens mask = .ok r) (h1 : 12 ≤ sens.length) (h2 : 12 ≤ mask.length) :
    sens.length = 12 ∧ mask.length = 12 := by
  unfold laylaWeights at h
  simp only [bind_iff] at h
  obtain ⟨w, hw, _, _, w2, hw2, _⟩ := h
  have e1 := npMul_ok_length hw (by omega)
  have key : ∃ (o w3 : List ℚ), o.length = 12 ∧ npMul (w.map (fun (x : ℚ) => x / w.sum)) o = .ok w3 := by
    have hl : (if c.sym = true then npSetSlice (List.replicate 12 1) 4 8 0 else List.replicate 12 (1 : ℚ)).length = 12 := by
      split <;> simp [npSetSlice]
    unfold laylaDrop at hw2
    dsimp only at hw2
    split at hw2
    · simp only [bind_iff] at hw2
      obtain ⟨o, ho, w3, hw3, _⟩ := hw2
      exact ⟨o, w3, by rw [npSets_len _ _ _ _ ho, hl], hw3⟩
    · simp only [bind_iff] at hw2
      obtain ⟨o, ho, w3, hw3, _⟩ := hw2
      cases Except.ok.inj ho
      exact ⟨_, w3, hl, hw3⟩
  obtain ⟨o, w3, hol, hw3⟩ := key
  have e2 := npMul_ok_length hw3 (by omega)
  simp only [List.length_map] at e2
  omega

theorem saveSensitivities_inv {l : List ℚ} {s : Sheet} (h : saveSensitivities l = .ok s) : 12 ≤ l.length := by
  unfold saveSensitivities at h
  split at h
  · simp
  · cases h

theorem saveOptimised_inv {l : List ℚ} {s : Sheet} (h : saveOptimised l = .ok s) : 12 ≤ l.length := by
  unfold saveOptimised at h
  split at h
  · simp
  · cases h

theorem list_twelve {l : List ℚ} (h : l.length = 12) :
    ∃ x1 x2 x3 x4 x5 x6 x7 x8 x9 x10 x11 x12, l = [x1, x2, x3, x4, x5, x6, x7, x8, x9, x10, x11, x12] := by
  match l, h with
  | [x1, x2, x3, x4, x5, x6, x7, x8, x9, x10, x11, x12], _ => exact ⟨_, _, _, _, _, _, _, _, _, _, _, _, rfl⟩

/-- The arguments recorded on the saved sheet. -/
def laylaSavedPars (p : LaylaParams) (sens mask : List ℚ) : LaylaParArgs :=
  { nOuter := .int p.nOuter, coeff10 := .float p.coeff10, coeffBalIpo := .float p.coeffBalIpo, coeffOopo := .float p.coeffOopo
    groupSizeMin := .int p.groupSizeMin, groupSizeMax := .array (p.groupSizeMax.map (fun (z : Int) => (z : ℚ)))
    sensitivities := sens, optimised := mask, globalNodeLimit := .int p.globalNodeLimit, globalNodeLimitP := .int p.globalNodeLimitP
    localNodeLimit := .int p.localNodeLimit, localNodeLimitFinal := .int p.localNodeLimitFinal, membrane := .bool p.membrane
    flexural := .bool p.flexural, pA := .float p.pA, nD1 := .int p.nD1, nD2 := .int p.nD2, nD3 := .int p.nD3
    pen10Lampam := .bool p.pen10Lampam, pen10Pc := .bool p.pen10Pc, penBal := .bool p.penBal, penIpo := .bool p.penIpo }

theorem laylaParsOf_save (p : LaylaParams) (sens mask : List ℚ) (h1 : sens.length = 12) (h2 : mask.length = 12)
    (hg : p.groupSizeMax ≠ []) :
    ∃ s, saveLaylaParams p sens mask = .ok s ∧ laylaParsOf s = .ok (laylaSavedPars p sens mask) := by
  obtain ⟨x1, x2, x3, x4, x5, x6, x7, x8, x9, x10, x11, x12, rfl⟩ := list_twelve h1
  obtain ⟨y1, y2, y3, y4, y5, y6, y7, y8, y9, y10, y11, y12, rfl⟩ := list_twelve h2
  refine ⟨_, rfl, ?_⟩
  have e : Cell.asInts (.ints p.groupSizeMax) = .ok p.groupSizeMax := by
    cases hc : p.groupSizeMax with
    | nil => exact absurd hc hg
    | cons x l => rfl
  unfold laylaParsOf twelveOf
  simp [Sheet.flag, Sheet.int, Sheet.float, Sheet.ints, Sheet.cell, List.lookup, Cell.asFlag, Cell.asInt, Cell.asFloat,
    bind, Except.bind, truncRat_int, e, pure, Except.pure, laylaSavedPars]

/-- **C88.** The sheet Parameters can be written exactly when the sensitivities and the lamination parameters to be optimised are given
by twelve components, and it records the parameters: made again from what it says, with the same constraints, they are the same. -/
theorem C88_parameters (c : Cons) (a : LaylaParArgs) (p : LaylaParams) (h : mkLaylaParams c a = .ok p) :
    ((∃ s, saveLaylaParams p a.sensitivities a.optimised = .ok s) ↔ a.sensitivities.length = 12 ∧ a.optimised.length = 12) ∧
    ∀ s, saveLaylaParams p a.sensitivities a.optimised = .ok s →
      ∃ a', laylaParsOf s = .ok a' ∧ mkLaylaParams c a' = .ok p := by
  obtain ⟨h1, h2, h3, h4, h5, h6, h7, h8, h9, h10, h11, h12, h13, h14, h15, h16, h17, h18, h19, h20, h21, h22, h23, h24⟩ :=
    (C77_accepted c a p).1 h
  obtain ⟨g1, g2, g3, g4, g5, _⟩ := C77_group_sizes c a p h
  have hg : p.groupSizeMax ≠ [] := by
    intro hn
    rw [hn] at g4
    simp at g4
    omega
  have hlen : ∀ s, saveLaylaParams p a.sensitivities a.optimised = .ok s → a.sensitivities.length = 12 ∧ a.optimised.length = 12 := by
    intro s hs
    unfold saveLaylaParams at hs
    simp only [bind_iff] at hs
    obtain ⟨s1, hs1, s2, hs2, _⟩ := hs
    exact laylaWeights_twelve h22 (saveSensitivities_inv hs1) (saveOptimised_inv hs2)
  refine ⟨⟨fun ⟨s, hs⟩ => hlen s hs, fun ⟨l1, l2⟩ => ?_⟩, fun s hs => ?_⟩
  · obtain ⟨s, hs, _⟩ := laylaParsOf_save p _ _ l1 l2 hg
    exact ⟨s, hs⟩
  · obtain ⟨l1, l2⟩ := hlen s hs
    obtain ⟨s', hs', hp⟩ := laylaParsOf_save p _ _ l1 l2 hg
    rw [hs] at hs'
    cases Except.ok.inj hs'
    refine ⟨_, hp, (C77_accepted c _ p).2 ?_⟩
    refine ⟨⟨.int _, h1.2⟩, ⟨fun r => ⟨rfl, rfl, .float _, (h2.1 r).2.2.2⟩, h2.2⟩, ?_, ⟨fun _ => rfl, h4.2⟩,
      ⟨fun r => ⟨rfl, .float _, (h5.1 r).2.2⟩, h5.2⟩, ?_, ⟨fun r => ⟨.float _, (h7.1 r).2⟩, h7.2⟩, rfl, rfl, ⟨.float _, h10.2⟩,
      .int _, .int _, .int _, ⟨.int _, h14.2⟩, ⟨?_, ?_, ?_⟩, ⟨.int _, h16.2⟩, ⟨.int _, h17.2⟩, ⟨.int _, h18.2⟩, ⟨.int _, h19.2⟩,
      h20, h21, h22, h23, h24⟩
    · rintro ⟨t1, t2⟩
      simp only [laylaSavedPars, PyObj.truth] at t1 t2
      rcases Bool.eq_false_or_eq_true c.rule10 with r | r
      · obtain ⟨q1, q2, _⟩ := h2.1 r
        apply h3
        rw [q1, q2]
        exact ⟨t1, t2⟩
      · rw [(h2.2 r).1] at t1
        cases t1
    · rintro ⟨t1, t2⟩
      simp only [laylaSavedPars, PyObj.truth] at t1 t2
      rcases Bool.eq_false_or_eq_true c.ipo with r | r
      · rcases Bool.eq_false_or_eq_true c.bal with v | v
        · apply h6
          rw [(h5.1 r).1, h4.1 v]
          exact ⟨t1, t2⟩
        · rw [h4.2 v] at t2
          cases t2
      · rw [(h5.2 r).1] at t1
        cases t1
    · simp only [laylaSavedPars, GroupMax.values, List.map_map]
      symm
      calc List.map (truncQ ∘ fun (z : Int) => (z : ℚ)) p.groupSizeMax = List.map id p.groupSizeMax := by
            apply List.map_congr_left
            intro x _
            exact truncQ_int x
        _ = p.groupSizeMax := List.map_id _
    · simp only [laylaSavedPars, GroupMax.values]
      intro x hx
      obtain ⟨z, hz, rfl⟩ := List.mem_map.1 hx
      exact_mod_cast g5 z hz
    · simpa [laylaSavedPars, GroupMax.values] using g4

/-! ### Concrete cases -/

/-- A run: its constraints, the constraints to be broken, its parameters and the sheet Parameters. -/
def laylaSaved (ca na : LaylaConsArgs) (pa : LaylaParArgs) : Py (Cons × Cons × LaylaParams × Sheet) := do
  let c ← mkLaylaConstraints ca
  let n ← mkLaylaConstraints na
  let p ← mkLaylaParams c pa
  let s ← saveLaylaParams p pa.sensitivities pa.optimised
  return (c, n, p, s)

theorem laylaSaved_ok {ca na : LaylaConsArgs} {pa : LaylaParArgs} {r : Cons × Cons × LaylaParams × Sheet}
    (h : laylaSaved ca na pa = .ok r) : mkLaylaConstraints ca = .ok r.1 ∧ mkLaylaConstraints na = .ok r.2.1 ∧
      mkLaylaParams r.1 pa = .ok r.2.2.1 ∧ saveLaylaParams r.2.2.1 pa.sensitivities pa.optimised = .ok r.2.2.2 := by
  unfold laylaSaved at h
  simp only [bind_iff] at h
  obtain ⟨c, hc, n, hn, p, hp, s, hs, e⟩ := h
  obtain rfl := Except.ok.inj e
  exact ⟨hc, hn, hp, hs⟩

set_option synthInstance.maxHeartbeats 200000 in
set_option synthInstance.maxSize 1000 in
/-- A complete case: the constraints and the parameters of a run, with rules to be broken, are found again on the sheets. -/
theorem C88_example : ∃ (ca na : LaylaConsArgs) (pa : LaylaParArgs) (c n : Cons) (p : LaylaParams) (s : Sheet),
    mkLaylaConstraints ca = .ok c ∧ mkLaylaConstraints na = .ok n ∧ mkLaylaParams c pa = .ok p ∧
    saveLaylaParams p pa.sensitivities pa.optimised = .ok s ∧
    ((saveLaylaConstraints c (some n)).lookup "percent_+-45" = some (.num 25) ∧
      (saveLaylaConstraints c (some n)).lookup "n_contig" = some (.num 4) ∧
      (saveLaylaConstraints c (some n)).lookup "fibre orientations" = some (.ints [-45, 0, 45, 90]) ∧
      (saveLaylaConstraints c (some n)).lookup "delta_angle (no)" = some (.num 45) ∧
      s.lookup "maximum group size" = some (.ints [8, 10]) ∧ s.lookup "lampam_to_be_optimised[12]" = some (.num 0)) ∧
    (∃ ca', laylaConsOf (saveLaylaConstraints c (some n)) = .ok ca' ∧ mkLaylaConstraints ca' = .ok c) ∧
    ∃ pa', laylaParsOf s = .ok pa' ∧ mkLaylaParams c pa' = .ok p := by
  obtain ⟨⟨c, n, p, s⟩, hr, t⟩ := ok_of_test (laylaSaved
      { sym := true, bal := true, rule10 := true, percent0 := 10, percent45 := 10, percent90 := 10, percent135 := 15,
        percent45_135 := 20, contig := true, nContig := 4 }
      { diso := true, deltaAngle := 45 }
      { nOuter := .int 2, groupSizeMax := .array [8, 21 / 2], optimised := [1, 1, 1, 1, 1, 1, 1, 1, 1, 1, 1, 0] })
    (fun r => decide ((saveLaylaConstraints r.1 (some r.2.1)).lookup "percent_+-45" = some (.num 25) ∧
      (saveLaylaConstraints r.1 (some r.2.1)).lookup "n_contig" = some (.num 4) ∧
      (saveLaylaConstraints r.1 (some r.2.1)).lookup "fibre orientations" = some (.ints [-45, 0, 45, 90]) ∧
      (saveLaylaConstraints r.1 (some r.2.1)).lookup "delta_angle (no)" = some (.num 45) ∧
      r.2.2.2.lookup "maximum group size" = some (.ints [8, 10]) ∧
      r.2.2.2.lookup "lampam_to_be_optimised[12]" = some (.num 0))) (by decide +kernel)
  obtain ⟨hc, hn, hp, hs⟩ := laylaSaved_ok hr
  simp only [decide_eq_true_eq] at t
  refine ⟨_, _, _, c, n, p, s, hc, hn, hp, hs, t, C88_constraints _ c _ hc (fun _ => ?_), (C88_parameters c _ p hp).2 s hs⟩
  norm_num

/-- The case of `C88_share_violation`: 60 % of the plies at 45 degrees and 60 % at -45 degrees. -/
theorem C88_share_example : ∃ (a : LaylaConsArgs) (c : Cons), mkLaylaConstraints a = .ok c ∧ a.rule10 = true ∧
    100 < a.percent45 + a.percent135 ∧
    ∃ a', laylaConsOf (saveLaylaConstraints c none) = .ok a' ∧ ∃ e, mkLaylaConstraints a' = .error e := by
  obtain ⟨c, hc, _⟩ := ok_of_test (mkLaylaConstraints { rule10 := true, percent45 := 60, percent135 := 60 })
    (fun _ => true) (by decide +kernel)
  exact ⟨_, c, hc, rfl, by norm_num, C88_share_violation _ c none hc rfl (by norm_num)⟩

end Bella
