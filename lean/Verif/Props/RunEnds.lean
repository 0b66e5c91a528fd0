import Verif.Props.RepairTotal
import Verif.Props.OptimiserExample
/-
Properties C60, C61, C62 and C64: the repair of a blending strip, the optimisation with one ply drop layout and the whole
optimisation end.  The only loops without a bound of their own are those of the repair of the reference panel.
-/
namespace Bella

variable {V : Type} [AddCommMonoid V]

/-- The settings of the optimisation with a bound `f` on the iterations of the loops of the repair. -/
def OneSetup.bounded (O : OneSetup) (f : Nat) : OneSetup := { O with R := { O.R with fuel := f } }

/-- The same for the whole optimisation. -/
def BellaSetup.bounded (B : BellaSetup V) (f : Nat) : BellaSetup V := { B with O := B.O.bounded f }

/-- What makes the loops of the repair end: the imports missing in two modules are in place, the 10% rule is the one on ply
counts (or off), and 90 is an angle if balance is required. -/
structure LoopsEnd (P : RepairSetup) : Prop where
  imported : P.imported = true
  counts : (P.c.rule10 && P.c.rule10Abdalla) = false
  ninety : P.c.ipo = true → (90 : Int) ∈ P.c.angles

/-- C60: the repair of the reference panel ends (with a result or an exception): there is a number of iterations after which its
outcome is known. -/
theorem C60_ends (a : ConsArgs) (P : RepairSetup) (cs : Int → Nat → ℚ) (ipoOk : Stack → Bool) (indRef : Nat)
    (ss : List Stack) (pdl : Table) (w : Nat) (ssRef : Stack) (href : ss[indRef]? = some ssRef) (H : RepairCase a P cs ssRef)
    (L : LoopsEnd P) (hmid : P.memSwitch = true → P.c.sym = true → ssRef.length % 2 = 1 → P.c.ipo = true ∨ P.c.rule10 = true ∨
      ssRef[ssRef.length / 2]? = some 0 ∨ ssRef[ssRef.length / 2]? = some 90) :
    ∃ out N, ∀ fuel, N ≤ fuel → repairReferencePanel { P with fuel := fuel } ipoOk indRef ss pdl w = some out := by
  obtain ⟨s', iw, ow, ind, N, h⟩ := repairSteps_total H L.counts L.imported L.ninety hmid
  cases ow with
  | true =>
    refine ⟨refFinish P ipoOk indRef ss pdl w s', N, fun fuel hf => ?_⟩
    unfold repairReferencePanel
    rw [href]
    dsimp only
    rw [h fuel hf]
    rfl
  | false =>
    refine ⟨refFail indRef ss pdl w s', N, fun fuel hf => ?_⟩
    unfold repairReferencePanel
    rw [href]
    dsimp only
    rw [h fuel hf]
    rfl

/-- C61: the repair of a blending strip ends. -/
theorem C61_ends (a : ConsArgs) (P : RepairSetup) (cs : Int → Nat → ℚ) (ipoOk : Stack → Bool) (S : StripSetup)
    (ss : List Stack) (pdl : Table) (w : Nat) (ssRef : Stack) (href : ss[S.r.indRef]? = some ssRef) (H : RepairCase a P cs ssRef)
    (L : LoopsEnd P) (hmid : P.memSwitch = true → P.c.sym = true → ssRef.length % 2 = 1 → P.c.ipo = true ∨ P.c.rule10 = true ∨
      ssRef[ssRef.length / 2]? = some 0 ∨ ssRef[ssRef.length / 2]? = some 90) :
    ∃ out N, ∀ fuel, N ≤ fuel → repairMp { P with fuel := fuel } ipoOk S ss pdl w = some out := by
  obtain ⟨out, N, h⟩ := C60_ends a P cs ipoOk S.r.indRef ss pdl w ssRef href H L hmid
  rcases out with e | ⟨b, sst1, ss1⟩
  · refine ⟨.error e, N, fun fuel hf => ?_⟩
    unfold repairMp
    rw [h fuel hf]
  · cases b with
    | false =>
      refine ⟨mpFail 1 ss1 pdl w, N, fun fuel hf => ?_⟩
      unfold repairMp
      rw [h fuel hf]
    | true =>
      refine ⟨mpThin S pdl w sst1 ss1, N, fun fuel hf => ?_⟩
      unfold repairMp
      rw [h fuel hf]

/-- The condition on the middle plies for the optimisation: no problem with even numbers of plies. -/
theorem repairNode_ends {a : ConsArgs} {P : Problem V} {O : OneSetup} {cs : Int → Nat → ℚ} {plies : List Nat} {w : Nat}
    (M : OneCase a P O cs plies w) (L : LoopsEnd O.R)
    (hodd : O.R.memSwitch = true → P.c.sym = true → (∀ n ∈ plies, n % 2 = 0) ∨ P.c.ipo = true ∨ P.c.rule10 = true)
    {x : Node V} (hx : PliesAllowed P x) :
    ∃ out N, ∀ fuel, N ≤ fuel → repairNode (O.bounded fuel) P.pdl w x.bot x.top = some out := by
  have hass : ∀ fuel, assembleNode (O.bounded fuel) x.bot x.top = assembleNode O x.bot x.top := fun _ => rfl
  cases hn : assembleNode O x.bot x.top with
  | error e =>
    refine ⟨.error e, 0, fun fuel _ => ?_⟩
    unfold repairNode
    rw [hass, hn]
  | ok ss =>
    obtain ⟨guide, ssRef, rowRef, g1, g2, g3, g4⟩ := one_strip M hx hn
    obtain ⟨out, N, h⟩ := C61_ends a O.R cs O.ipoOk O.S ss P.pdl w ssRef g2.strip.ref g2.repair L (by
      intro hsw hs ho
      rw [M.sameR] at hs ⊢
      rcases hodd hsw hs with h | h | h
      · have := h _ g4
        omega
      · exact Or.inl h
      · exact Or.inr (Or.inl h))
    rcases out with e | r
    · refine ⟨.error e, N, fun fuel hf => ?_⟩
      unfold repairNode
      rw [hass, hn]
      dsimp only
      rw [show repairMp (O.bounded fuel).R (O.bounded fuel).ipoOk (O.bounded fuel).S ss P.pdl w = some (.error e) from h fuel hf]
    · refine ⟨evalDesign O r, N, fun fuel hf => ?_⟩
      unfold repairNode
      rw [hass, hn]
      dsimp only
      rw [show repairMp (O.bounded fuel).R (O.bounded fuel).ipoOk (O.bounded fuel).S ss P.pdl w = some (.ok r) from h fuel hf]
      rfl

theorem repairNodes_ends {O : OneSetup} {pdl : Table} {w : Nat} : ∀ xs : List (List Stack × List Stack),
    (∀ x ∈ xs, ∃ out N, ∀ fuel, N ≤ fuel → repairNode (O.bounded fuel) pdl w x.1 x.2 = some out) →
    ∃ out N, ∀ fuel, N ≤ fuel → repairNodes (O.bounded fuel) pdl w xs = some out := by
  intro xs
  induction xs with
  | nil => exact fun _ => ⟨.ok [], 0, fun _ _ => rfl⟩
  | cons x xs ih =>
    intro h
    obtain ⟨o1, N1, h1⟩ := h x (List.mem_cons_self ..)
    obtain ⟨o2, N2, h2⟩ := ih (fun y hy => h y (List.mem_cons_of_mem _ hy))
    obtain ⟨bot, top⟩ := x
    dsimp only at h1
    rcases o1 with e | d
    · refine ⟨.error e, N1, fun fuel hf => ?_⟩
      rw [repairNodes, h1 fuel hf]
    · rcases o2 with e | ds
      · refine ⟨.error e, max N1 N2, fun fuel hf => ?_⟩
        rw [repairNodes, h1 fuel (by omega)]
        dsimp only
        rw [h2 fuel (by omega)]
      · refine ⟨.ok (d :: ds), max N1 N2, fun fuel hf => ?_⟩
        rw [repairNodes, h1 fuel (by omega)]
        dsimp only
        rw [h2 fuel (by omega)]

/-- C62: the optimisation with one ply drop layout ends, with a result or an exception (if there is an odd number of plies in a
symmetric strip and the in-plane refinement is on, balance or the 10% rule must be required). -/
theorem C62_ends (a : ConsArgs) (P : Problem V) (O : OneSetup) (cs : Int → Nat → ℚ) (plies : List Nat) (w : Nat)
    (M : OneCase a P O cs plies w) (L : LoopsEnd O.R)
    (hodd : O.R.memSwitch = true → P.c.sym = true → (∀ n ∈ plies, n % 2 = 0) ∨ P.c.ipo = true ∨ P.c.rule10 = true)
    (save : Bool) (nPanels : Nat) :
    ∃ out N, ∀ fuel, N ≤ fuel → optimiserOnePdl P (O.bounded fuel) save nPanels w = some out := by
  cases hb : beamSearch P with
  | error e =>
    refine ⟨.error e, 0, fun fuel _ => ?_⟩
    unfold optimiserOnePdl
    rw [hb]
  | ok t =>
    obtain ⟨ns, rfl, hns⟩ := search_allowed M.cons M.objBound hb
    obtain ⟨out, N, h⟩ := repairNodes_ends (O := O) (pdl := P.pdl) (w := w) ((tabsOf ns).bots.zip (tabsOf ns).tops) (by
      intro x hx
      simp only [tabsOf, List.zip_map', List.mem_map] at hx
      obtain ⟨y, hy, rfl⟩ := hx
      exact repairNode_ends M L hodd (hns y hy))
    rcases out with e | ds
    · refine ⟨.error e, N, fun fuel hf => ?_⟩
      unfold optimiserOnePdl
      rw [hb]
      dsimp only
      rw [h fuel hf]
    · refine ⟨finishOne O save nPanels ds, N, fun fuel hf => ?_⟩
      unfold optimiserOnePdl
      rw [hb]
      dsimp only
      rw [h fuel hf]
      rfl

theorem outerLoop_ends {one : Nat → Table → Option (Py (Option OneResult))} : ∀ pdls : List Table,
    (∀ t ∈ pdls, ∃ out N, ∀ fuel, N ≤ fuel → one fuel t = some out) →
    ∃ out N, ∀ fuel, N ≤ fuel → outerLoop (one fuel) pdls = some out := by
  intro pdls
  induction pdls with
  | nil => exact fun _ => ⟨.ok [], 0, fun _ _ => rfl⟩
  | cons t pdls ih =>
    intro h
    obtain ⟨o1, N1, h1⟩ := h t (List.mem_cons_self ..)
    obtain ⟨o2, N2, h2⟩ := ih (fun y hy => h y (List.mem_cons_of_mem _ hy))
    rcases o1 with e | _ | r
    · refine ⟨.error e, N1, fun fuel hf => ?_⟩
      rw [outerLoop, h1 fuel hf]
    · rcases o2 with e | l
      · refine ⟨.error e, max N1 N2, fun fuel hf => ?_⟩
        rw [outerLoop, h1 fuel (by omega)]
        dsimp only
        rw [h2 fuel (by omega)]
      · refine ⟨.ok (none :: l), max N1 N2, fun fuel hf => ?_⟩
        rw [outerLoop, h1 fuel (by omega)]
        dsimp only
        rw [h2 fuel (by omega)]
    · by_cases h0 : r.obj = 0
      · refine ⟨.ok (some r :: pdls.map (fun _ => none)), N1, fun fuel hf => ?_⟩
        rw [outerLoop, h1 fuel hf]
        dsimp only
        rw [if_pos h0]
      · rcases o2 with e | l
        · refine ⟨.error e, max N1 N2, fun fuel hf => ?_⟩
          rw [outerLoop, h1 fuel (by omega)]
          dsimp only
          rw [if_neg h0, h2 fuel (by omega)]
        · refine ⟨.ok (some r :: l), max N1 N2, fun fuel hf => ?_⟩
          rw [outerLoop, h1 fuel (by omega)]
          dsimp only
          rw [if_neg h0, h2 fuel (by omega)]

/-- C64: once the initial ply drop layouts are drawn, the whole optimisation ends, with a result or an exception. -/
theorem C64_ends (a : ConsArgs) (B : BellaSetup V) (cs : Int → Nat → ℚ) (M : BellaCase a B cs) (hne : B.plies ≠ [])
    (L : LoopsEnd B.O.R) (sched : List (List (List (Draw × Bool)) × Bool)) (hv : PossibleDraws B sched)
    (drawn : Py (List Table)) (hl : B.layouts sched = some drawn) :
    ∃ out N, ∀ fuel, N ≤ fuel → bellaOptimiser (B.bounded fuel) sched = some out := by
  have hlay : ∀ fuel, (B.bounded fuel).layouts sched = some drawn := fun _ => hl
  rcases drawn with e | pdls
  · refine ⟨.error e, 0, fun fuel _ => ?_⟩
    unfold bellaOptimiser
    rw [hlay]
  · obtain ⟨out, N, h⟩ := outerLoop_ends (one := fun fuel pdl =>
        optimiserOnePdl (B.problem pdl) (B.O.bounded fuel) B.save B.plies.length B.nMax) pdls (by
      intro t ht
      have M1 := bella_one M hne hv hl t ht
      exact C62_ends a (B.problem t) B.O cs B.plies B.nMax M1 L (fun _ hs => Or.inl (M.even (by
        rw [← (M.problem t).2.1]; exact hs))) B.save B.plies.length)
    rcases out with e | tab
    · refine ⟨.error e, N, fun fuel hf => ?_⟩
      unfold bellaOptimiser
      rw [hlay]
      show bestDesign _ pdls = _
      unfold bestDesign
      rw [show outerLoop (fun pdl => optimiserOnePdl ((B.bounded fuel).problem pdl) (B.bounded fuel).O (B.bounded fuel).save
        (B.bounded fuel).plies.length (B.bounded fuel).nMax) pdls = some (.error e) from h fuel hf]
    · refine ⟨pickBest tab, N, fun fuel hf => ?_⟩
      unfold bellaOptimiser
      rw [hlay]
      show bestDesign _ pdls = _
      unfold bestDesign
      rw [show outerLoop (fun pdl => optimiserOnePdl ((B.bounded fuel).problem pdl) (B.bounded fuel).O (B.bounded fuel).save
        (B.bounded fuel).plies.length (B.bounded fuel).nMax) pdls = some (.ok tab) from h fuel hf]

/-- The hypotheses of `C64_ends` (and so those of the theorems before it) on a complete run: panels of 12, 10 and 6 plies. -/
example : ∃ (B : BellaSetup ℚ) (sched : List (List (List (Draw × Bool)) × Bool)) (drawn : Py (List Table)),
    BellaCase mpArgs B trig4 ∧ B.plies = [12, 10, 6] ∧ LoopsEnd B.O.R ∧ PossibleDraws B sched ∧ B.layouts sched = some drawn ∧
    ∃ out N, ∀ fuel, N ≤ fuel → bellaOptimiser (B.bounded fuel) sched = some out := by
  obtain ⟨B, sched, x, M, hv, _, hp, hi, hx, _⟩ := bella_example
  obtain ⟨c, hc, ht⟩ := ok_of_test (mkConstraints mpArgs) (fun (c : Cons) => decide (c.rule10 = false ∧
    (90 : Int) ∈ c.angles)) (by decide +kernel)
  obtain ⟨t1, t2⟩ := of_decide_eq_true ht
  have e : B.O.R.c = c := by
    have := M.cons
    rw [hc] at this
    rw [M.sameR]
    exact (Except.ok.inj this).symm
  have L : LoopsEnd B.O.R := ⟨hi, by rw [e, t1]; rfl, fun _ => by rw [e]; exact t2⟩
  cases hl : B.layouts sched with
  | none =>
    unfold bellaOptimiser at hx
    rw [hl] at hx
    cases hx
  | some drawn =>
    exact ⟨B, sched, drawn, M, hp, L, hv, hl, C64_ends mpArgs B trig4 M (by rw [hp]; simp) L sched hv drawn hl⟩

end Bella
