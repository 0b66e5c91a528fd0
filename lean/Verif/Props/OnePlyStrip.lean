import Verif.Props.OnePly
import Verif.Props.Optimiser
import Verif.Props.ReportFile
import Verif.Props.ReportExample
/-
C61, C62, C64 and C73: the disorientation rule in the reference panel when damage tolerance protects at most one ply of each face
(the tests at the end do not look at it under rule 1), and the lay-up rules met by the design of a run from a file.
-/
namespace Bella

/-- Conditions on the repair of a laminate of `n` plies under which its steps keep the disorientation rule: damage tolerance off, or
rule 1; an even number of plies for symmetric laminates; the number of plies permuted at once not below the limit of contiguity; some
sizes excluded, as in C28. -/
structure OnePlyCase (P : RepairSetup) (n : Nat) : Prop where
  rule : ∃ r : Int, P.attr = .rule r ∧ (P.c.damTol = true → r ≠ 2 ∧ r ≠ 3)
  delta : 0 ≤ P.c.deltaAngle
  permuted : 1 ≤ P.nD1
  even : P.c.sym = true → n % 2 = 0
  contig : P.c.contig = true → P.c.nContig ≤ P.nD1
  size : P.c.sym = false → n ≠ 4 + min P.nD1 (n - 2 * (if P.c.damTol then 1 else 0) - 1) + P.c.nContig
  size' : P.c.sym = true → n ≤ P.c.nContig ∨ P.c.nContig + 2 ≤ n

/-- C61: when damage tolerance protects at most one ply of each face, the reference panel of a strip repaired with success meets the
disorientation rule everywhere. -/
theorem C61_disorientation_one_ply (a : ConsArgs) (P : RepairSetup) (cs : Int → Nat → ℚ) (ipoOk : Stack → Bool) (S : StripSetup)
    (ss : List Stack) (pdl : Table) (guide ssRef rowRef : Stack) (M : MpCase a P cs S ss pdl guide ssRef rowRef)
    (K : OnePlyCase P ssRef.length) (r : MpResult) (h : repairMp P ipoOk S ss pdl guide.length = some (.ok r))
    (hs : r.success = true) :
    ∃ ref, r.ss[S.r.indRef]? = some ref ∧ (P.c.diso = true → Spec.DisoOK P.c.deltaAngle ref) := by
  obtain ⟨_, _, ⟨sst1, ss1, ref, h1, h2, h3⟩, _⟩ := C61_panels a P cs ipoOk S ss pdl guide ssRef rowRef M r h hs
  obtain ⟨ru, k1, k2⟩ := K.rule
  obtain ⟨ref', e, e2⟩ := C60_disorientation_one_ply a P cs ipoOk S.r.indRef ss pdl guide ssRef rowRef
    M.strip M.repair M.noMinusOne ru k1 k2 K.delta K.permuted K.even K.contig K.size K.size' sst1 ss1 h1
  rw [h2] at e
  cases e
  exact ⟨ref, h3, e2⟩

section
variable {V : Type} [AddMonoid V]

/-- C62: when damage tolerance protects at most one ply of each face, the panels with as many plies as the reference panel meet the
disorientation rule everywhere. -/
theorem C62_disorientation_one_ply (a : ConsArgs) (P : Problem V) (O : OneSetup) (cs : Int → Nat → ℚ) (plies : List Nat) (w : Nat)
    (M : OneCase a P O cs plies w) (res : OneResult) (h : optimiserOnePdl P O false plies.length w = some (.ok (some res)))
    (ho : res.obj ≠ failObj) (i n : Nat) (hi : plies[i]? = some n) (hn : O.S.r.nPlies[O.S.r.indRef]? = some n)
    (K : OnePlyCase O.R n) :
    ∃ s, res.ss[i]? = some s ∧ (P.c.diso = true → Spec.DisoOK P.c.deltaAngle s) := by
  obtain ⟨bot, top, ss, r, guide, ssRef, rowRef, d, g1, g2, g3, g4, g5, g6, g7, g8, g9, g10, g11, g12⟩ := one_result M h ho
  obtain ⟨_, e1, _⟩ := finishDesign_ok g12
  obtain ⟨k1, _⟩ := C61_panels a O.R cs O.ipoOk O.S ss P.pdl guide ssRef rowRef g2 r g5 g6
  rw [← g8] at k1
  obtain ⟨_, f1⟩ := one_extend M k1 e1
  have hl : n = ssRef.length := by
    have := g2.count
    rw [hn] at this
    exact Option.some.inj this
  obtain ⟨s, u1, u2⟩ := C61_disorientation_one_ply a O.R cs O.ipoOk O.S ss P.pdl guide ssRef rowRef g2 (hl ▸ K) r g5 g6
  rw [M.sameR] at u2
  exact ⟨s, by rw [f1 i n _ hi hn, g8, u1], u2⟩

end

section
variable {W : Type} [AddCommMonoid W]

/-- C64: when damage tolerance protects at most one ply of each face, the panels with as many plies as the reference panel meet the
disorientation rule everywhere. -/
theorem C64_disorientation_one_ply (a : ConsArgs) (B : BellaSetup W) (cs : Int → Nat → ℚ) (M : BellaCase a B cs)
    (hs : B.save = false) (hne : B.plies ≠ []) (sched : List (List (List (Draw × Bool)) × Bool)) (hv : PossibleDraws B sched)
    (res : OneResult) (h : bellaOptimiser B sched = some (.ok (some res))) (ho : res.obj ≠ failObj)
    (i n : Nat) (hi : B.plies[i]? = some n) (hn : B.O.S.r.nPlies[B.O.S.r.indRef]? = some n) (K : OnePlyCase B.O.R n) :
    ∃ s, res.ss[i]? = some s ∧ (B.O.S.c.diso = true → Spec.DisoOK B.O.S.c.deltaAngle s) := by
  obtain ⟨pdls, e, ⟨t, ht, h1⟩, _⟩ := bella_run h
  rw [hs] at h1
  have k := C62_disorientation_one_ply a _ _ cs _ _ (bella_one M hne hv e t ht)
  rw [(M.problem t).2.1] at k
  exact k res h1 ho i n hi hn K

/-- **C73.** The lay-up rules met by the design of a run from a file of sound layouts: a panel with as many plies as the reference
panel meets all the rules that are switched on (the disorientation rule without damage tolerance rule 1, or whenever the steps of the
repair keep it). -/
theorem C73_reference_rules (a : ConsArgs) (B : BellaSetup W) (cs : Int → Nat → ℚ) (M : FileCase a B cs) (hs : B.save = false)
    (hne : B.plies ≠ []) (targets : List (List ℚ)) (pdls : List Table) (sched : List (List (List (Draw × Bool)) × Bool))
    (hL : ∀ t ∈ pdls, Spec.SoundLayout B.O.S.c.sym B.O.S.c.nCovering t) (out : BellaOutput)
    (h : bellaRun B targets (some pdls) sched = some (.ok out)) (res : OneResult) (hres : out.design = some res)
    (ho : res.obj ≠ failObj) (i n : Nat) (hi : B.plies[i]? = some n) (hn : B.O.S.r.nPlies[B.O.S.r.indRef]? = some n) :
    ∃ s, res.ss[i]? = some s ∧
      (B.O.S.c.damTol = true → (B.O.S.c.damTolAttr = .rule 1 ∧ Spec.DamTol1 s) ∨
        (B.O.S.c.damTolAttr = .rule 2 ∧ Spec.DamTol2 s) ∨ (B.O.S.c.damTolAttr = .rule 3 ∧ Spec.DamTol3 s)) ∧
      (B.O.S.c.bal = true → Spec.Balanced s) ∧
      (B.O.S.c.diso = true → ¬ (B.O.S.c.damTol = true ∧ B.O.S.c.damTolAttr = .rule 1) →
        Spec.PairsWithin B.O.S.c.deltaAngle s (if B.O.S.c.damTol then 1 else 0)
          (if B.O.S.c.damTol then s.length - 2 else s.length)) ∧
      (B.O.S.c.diso = true → OnePlyCase B.O.R n → Spec.DisoOK B.O.S.c.deltaAngle s) ∧
      (B.O.S.c.contig = true → Spec.ContigOK B.O.S.c.nContig s) ∧
      (B.O.S.c.rule10 = true → Spec.MeetsShares B.O.S.c.shares (1 / 10 ^ 15) (s.count 0) (s.count 90)
        (s.count 45) (s.count (-45)) s.length) ∧
      (B.O.S.c.rule10 = true → B.O.S.c.rule10Abdalla = true → B.O.R.dist (Spec.inPlane cs s.length s) ≤ 1 / 10 ^ 10) := by
  have hN := file_cases a B cs M hne targets pdls sched hL out h
  obtain ⟨used, tab, pdls', e0, R⟩ := bellaRun_ok h
  obtain ⟨t, ht, k0⟩ := R.found hres
  rw [hs] at k0
  have k := C62_reference_rules a _ _ cs _ _ (hN _ e0 t ht)
  have k' := C62_disorientation_one_ply a _ _ cs _ _ (hN _ e0 t ht)
  rw [(M.problem t).2.1] at k k'
  obtain ⟨s, u1, u2, u3, u4, u5⟩ := k res k0 ho i n hi hn
  refine ⟨s, u1, u2, u3, u4, fun hd K => ?_, u5⟩
  obtain ⟨s', v1, v2⟩ := k' res k0 ho i n hi hn K
  rw [u1] at v1
  cases v1
  exact v2 hd

/-- **C73.** The other panels of the design of a run from a file of sound layouts keep the covering plies of the reference panel, meet
the contiguity rule and the 10% rule in its lamination parameter variant, and the disorientation rule if they are thicker than the
reference panel; with the balance rule they are balanced up to one ply, on each side of the mid-plane for symmetric laminates. -/
theorem C73_other_rules (a : ConsArgs) (B : BellaSetup W) (cs : Int → Nat → ℚ) (M : FileCase a B cs) (hs : B.save = false)
    (hne : B.plies ≠ []) (targets : List (List ℚ)) (pdls : List Table) (sched : List (List (List (Draw × Bool)) × Bool))
    (hL : ∀ t ∈ pdls, Spec.SoundLayout B.O.S.c.sym B.O.S.c.nCovering t) (out : BellaOutput)
    (h : bellaRun B targets (some pdls) sched = some (.ok out)) (res : OneResult) (hres : out.design = some res)
    (ho : res.obj ≠ failObj) (i k n m : Nat) (hi : B.plies[i]? = some n) (hk : B.plies[k]? = some m)
    (hm : B.O.S.r.nPlies[B.O.S.r.indRef]? = some m) (hnm : n ≠ m) :
    ∃ s ref : Stack, res.ss[i]? = some s ∧ res.ss[k]? = some ref ∧
      (B.O.S.c.covering = true → s.take B.O.S.c.nCovering = ref.take B.O.S.c.nCovering ∧
        s.reverse.take B.O.S.c.nCovering = ref.reverse.take B.O.S.c.nCovering) ∧
      (B.O.S.c.contig = true → Spec.ContigOK B.O.S.c.nContig
        (if B.O.S.c.damTol = true ∧ B.O.S.c.damTolAttr.twoPlies = true then (s.drop 1).dropLast else s)) ∧
      (m < n → B.O.S.c.diso = true → Spec.DisoOK B.O.S.c.deltaAngle
        (if B.O.S.c.damTol = true ∧ B.O.S.c.damTolAttr.twoPlies = true then (s.drop 1).dropLast else s)) ∧
      (B.O.S.c.rule10 = true → B.O.S.c.rule10Abdalla = true → B.O.S.dist (B.O.S.lampam s) = 0) ∧
      (B.O.S.c.bal = true → Spec.Balanced s ∨ ∃ b : Int, ∀ x : Int, x ≠ 0 → x ≠ 90 → x ≠ -90 →
        (s.count x : Int) - s.count (-x) = (if n < m then -1 else 1) *
          ((if B.O.S.c.sym then 2 else 1) * ((if x = b then 1 else 0) - (if x = -b then 1 else 0)))) := by
  have hN := file_cases a B cs M hne targets pdls sched hL out h
  obtain ⟨used, tab, pdls', e0, R⟩ := bellaRun_ok h
  obtain ⟨t, ht, k0⟩ := R.found hres
  rw [hs] at k0
  have k1 := C62_other_rules a _ _ cs _ _ (hN _ e0 t ht) res k0 ho i k n m hi hk hm hnm
  have k2 := C62_balance a _ _ cs _ _ (hN _ e0 t ht) res k0 ho
  rw [(M.problem t).2.1] at k1 k2
  obtain ⟨s, ref, q1, q2, q3, q4, q5, q6⟩ := k1
  refine ⟨s, ref, q1, q2, q3, q4, q5, q6, fun hb => ?_⟩
  obtain ⟨s', u1, u2⟩ := k2 hb i n m hi hm
  rw [q1] at u1
  cases u1
  exact u2.imp_right (fun ⟨_, b, v⟩ => ⟨b, v⟩)

end

/-- The conditions hold for the setups of the complete runs of the examples (panels of 12 plies, no damage tolerance, the run of
`C73_run_example`), and for damage tolerance rule 1 with laminates of 16 plies. -/
example : (∃ c, mkConstraints repArgs = .ok c ∧ c.diso = true ∧ OnePlyCase (ssSetup c false false) 12) ∧
    ∃ c, mkConstraints (ssArgs true) = .ok c ∧ c.damTol = true ∧ c.diso = true ∧ OnePlyCase (ssSetup c false true) 16 := by
  constructor
  · obtain ⟨c, hc, ht⟩ := ok_of_test (mkConstraints repArgs) (fun (c : Cons) => decide (c.diso = true ∧ c.sym = true ∧
      c.damTol = false ∧ c.nContig = 4 ∧ c.deltaAngle = 45 ∧ c.damTolAttr = .rule 0)) (by decide +kernel)
    obtain ⟨t1, t2, t3, t4, t5, t6⟩ := of_decide_eq_true ht
    exact ⟨c, hc, t1, ⟨⟨0, t6, fun h => by omega⟩, by show 0 ≤ c.deltaAngle; omega, by show 1 ≤ 6; decide, fun _ => by decide,
      fun _ => by show c.nContig ≤ 6; omega, fun h => absurd (t2.symm.trans h) (by decide),
      fun _ => by show 12 ≤ c.nContig ∨ c.nContig + 2 ≤ 12; omega⟩⟩
  · obtain ⟨c, hc, ht⟩ := ok_of_test (mkConstraints (ssArgs true)) (fun (c : Cons) => decide (c.diso = true ∧ c.sym = true ∧
      c.damTol = true ∧ c.nContig = 5 ∧ c.deltaAngle = 45 ∧ c.damTolAttr = .rule 1)) (by decide +kernel)
    obtain ⟨t1, t2, t3, t4, t5, t6⟩ := of_decide_eq_true ht
    exact ⟨c, hc, t3, t1, ⟨⟨1, t6, fun h => by omega⟩, by show 0 ≤ c.deltaAngle; omega, by show 1 ≤ 6; decide, fun _ => by decide,
      fun _ => by show c.nContig ≤ 6; omega, fun h => absurd (t2.symm.trans h) (by decide),
      fun _ => by show 16 ≤ c.nContig ∨ c.nContig + 2 ≤ 16; omega⟩⟩

end Bella
