import Verif.Model.RepairMp
import Verif.Props.RepairReference
import Verif.Props.ThickToThin
import Verif.Props.ThinToThick
/-
C61: the repair of a blending strip, `repair_mp`.
-/
namespace Bella

theorem eq_of_drops : ∀ (a b : Stack), a.length = b.length → (∀ (j : Nat), a[j]? = some (-1) ↔ b[j]? = some (-1)) →
    a.filter (fun x => x != -1) = b.filter (fun x => x != -1) → a = b := by
  intro a
  induction a with
  | nil => intro b h _ _; cases b with | nil => rfl | cons _ _ => simp at h
  | cons x a ih =>
    intro b h hd hf
    cases b with
    | nil => simp at h
    | cons y b =>
      have h0 := hd 0
      have hr := ih b (by simpa using h) (fun j => by simpa using hd (j + 1))
      simp only [List.getElem?_cons_zero, Option.some.injEq] at h0
      by_cases hx : x = -1
      · have hy := h0.1 hx
        subst hx hy
        simp only [List.filter_cons, bne_self_eq_false, Bool.false_eq_true, if_false] at hf
        rw [hr hf]
      · have hy : y ≠ -1 := fun e => hx (h0.2 e)
        rw [List.filter_cons_of_pos (by simpa using hx), List.filter_cons_of_pos (by simpa using hy), List.cons.injEq] at hf
        rw [hf.1, hr hf.2]

/-- A table row is symmetric if its drops and its plies are. -/
theorem symm_of_drops {rr : Stack} (h1 : ∀ (j : Nat), rr[j]? = some (-1) ↔ rr.reverse[j]? = some (-1))
    (h2 : Spec.Symmetric (rr.filter (fun x => x != -1))) : Spec.Symmetric rr := by
  unfold Spec.Symmetric at h2 ⊢
  apply eq_of_drops
  · simp
  · intro j; exact (h1 j).symm
  · rw [List.filter_reverse, h2]

/-- A blending strip given to `repair_mp`: the ply drop layout `pdl` has one row per panel, the panels have different
numbers of plies (of the same parity for symmetric laminates), the thickest one has all the plies, and the drops of the
reference panel are symmetric for symmetric laminates. -/
structure MpCase (a : ConsArgs) (P : RepairSetup) (cs : Int → Nat → ℚ) (S : StripSetup) (ss : List Stack) (pdl : Table)
    (guide ssRef rowRef : Stack) : Prop where
  strip : StripCase pdl ss guide S.r.indRef ssRef rowRef
  repair : RepairCase a P cs ssRef
  same : S.c = P.c
  noMinusOne : (-1 : Int) ∉ P.c.angles
  reduced : ∃ (plies : List Nat) (nRef : Int) (bs : List (Nat × Nat)) (bw : List ((Nat × Nat) × ℚ)),
    mkReduced plies S.c.sym nRef bs bw = .ok S.r ∧
      (S.c.sym = true → ∀ n ∈ plies, ∀ m ∈ plies, n % 2 = m % 2)
  panels : pdl.length = S.r.nPlies.length
  full : S.r.nPlies[S.r.nPlies.length - 1]? = some guide.length
  count : S.r.nPlies[S.r.indRef]? = some ssRef.length
  symm : P.c.sym = true → ∀ (j : Nat), rowRef[j]? = some (-1) ↔ rowRef.reverse[j]? = some (-1)

theorem refLen {a : ConsArgs} {P : RepairSetup} {cs : Int → Nat → ℚ} {S : StripSetup} {ss : List Stack}
    {pdl : Table} {guide ssRef rowRef : Stack} (M : MpCase a P cs S ss pdl guide ssRef rowRef) :
    rowRef.length = guide.length := M.strip.width rowRef (List.mem_of_getElem? M.strip.refRow)

/-- The strip after the first step. -/
theorem mp_start {a : ConsArgs} {P : RepairSetup} {cs : Int → Nat → ℚ} {ipoOk : Stack → Bool} {S : StripSetup}
    {ss : List Stack} {pdl : Table} {guide ssRef rowRef : Stack} (M : MpCase a P cs S ss pdl guide ssRef rowRef)
    {sst1 : Table} {ss1 : List Stack}
    (h : repairReferencePanel P ipoOk S.r.indRef ss pdl guide.length = some (.ok (true, sst1, ss1))) :
    ∃ rr ref : Stack, StripTable S sst1 ss1 rr ∧ rr.length = guide.length ∧
      rr.filter (fun x => x != -1) = ref ∧ ss1[S.r.indRef]? = some ref ∧ (∀ x ∈ ref, x ∈ P.c.angles) ∧
      ss1 = sst1.map (fun r => r.filter (fun x => x != -1)) ∧
      (P.c.bal = true → Spec.Balanced ref) ∧ (∀ (j : Nat), rowRef[j]? = some (-1) ↔ rr[j]? = some (-1)) := by
  obtain ⟨h1, s, q, s', ref, rr, Sr, k1, k2, k3, k4, k5, k6, k7, k8, k9⟩ :=
    referencePanel_ok M.strip M.repair M.noMinusOne h
  have hp : ref.Perm (Spec.plyContent P.c.sym s q) := k3.trans k1
  have e : ss1 = sst1.map (fun r => r.filter (fun x => x != -1)) := by
    rw [h1]
    unfold convertSstToSs
    apply List.map_congr_left
    intro r _
    exact sstRowToSs_eq r
  have hf : rr.filter (fun x => x != -1) = ref := by
    rw [e, List.getElem?_map, k7] at k6
    simpa using k6
  obtain ⟨hlen, hdrop⟩ := k9 _ _ _ M.strip.refRow k7
  have hl := refLen M
  refine ⟨rr, ref, ⟨M.reduced, ?_, ?_, k7, ?_, ?_, fun hs => ?_⟩, hlen, hf, k6,
    fun x hx => Sr.content x (hp.mem_iff.1 hx), e, fun hb => ?_, hdrop⟩
  · rw [k8.1, M.panels]
  · rw [e, List.length_map, k8.1, M.panels]
  · rw [hlen]; exact M.full
  · rw [hf, k3.length_eq, k2]; exact M.count
  · rw [M.same] at hs
    refine symm_of_drops (fun j => ?_) (by rw [hf]; exact k4 hs)
    rw [← hdrop j, M.symm hs j]
    by_cases hj : j < guide.length
    · rw [List.getElem?_reverse (by omega), List.getElem?_reverse (by omega), hlen, hl, hdrop]
    · rw [List.getElem?_eq_none (by simp; omega), List.getElem?_eq_none (by simp; omega)]
  · intro x h1 h2 h3
    rw [hp.count_eq, hp.count_eq]
    exact Sr.bal hb x h1 h2 h3

/-- The strip after the second step. -/
theorem mp_designed {S : StripSetup} {sst1 sst2 : Table} {ss1 ss2 : List Stack} {lampams lps : List (List ℚ)} {rr : Stack}
    (C : StripTable S sst1 ss1 rr) (hm1 : (-1 : Int) ∉ S.c.angles)
    (he : ss1 = sst1.map (fun r => r.filter (fun x => x != -1)))
    (h : repairThickToThin S lampams sst1 ss1 = .ok (true, sst2, lps, ss2)) :
    DesignedStrip S sst2 ss2 rr ∧ ss2[S.r.indRef]? = ss1[S.r.indRef]? := by
  obtain ⟨h1, h2, h3, h4⟩ := C34_nested_panels S lampams sst1 ss1 rr C sst2 lps ss2 h
  have href := (h3 S.r.indRef le_rfl).1
  have href' := (h3 S.r.indRef le_rfl).2
  rw [C.ref] at href
  refine ⟨⟨⟨C.reduced, by rw [h1, C.nSst], by rw [h2, C.nSs], href, C.width, C.count, C.symm⟩, hm1, fun p hp => ?_,
    fun p hp row up hr hu j => ?_⟩, href'⟩
  · rcases Nat.lt_or_ge p S.r.indRef with hlt | hge
    · obtain ⟨row, up, g1, g2, g3, g4, g5, g6⟩ := h4 p hlt
      refine ⟨row, g1, g3, g5, fun hs => ?_, g6⟩
      obtain ⟨row', s', k1, _, _, k3, _⟩ := C34_rules S lampams sst1 ss1 rr C sst2 lps ss2 h p hlt
      rw [g1] at k1
      cases k1
      exact (k3 hs).1
    · have e : p = S.r.indRef := by omega
      subst e
      refine ⟨rr, href, rfl, ?_, C.symm, C.count⟩
      rw [href', he, List.getElem?_map, C.ref]
      rfl
  · obtain ⟨row', up', g1, g2, _, g4, _⟩ := h4 p hp
    rw [hr] at g1
    rw [hu] at g2
    cases g1
    cases g2
    exact g4 j

/-- The three steps of a successful repair. -/
theorem mp_success {P : RepairSetup} {ipoOk : Stack → Bool} {S : StripSetup}
    {ss : List Stack} {pdl : Table} {guide : Stack}
    {r : MpResult} (h : repairMp P ipoOk S ss pdl guide.length = some (.ok r)) (hs : r.success = true) :
    r.step = 4 ∧ r.pdl = pdl ∧ ∃ sst1 ss1 sst2 lps2 ss2 lps3,
      repairReferencePanel P ipoOk S.r.indRef ss pdl guide.length = some (.ok (true, sst1, ss1)) ∧
      repairThickToThin S (ss1.map S.lampam) sst1 ss1 = .ok (true, sst2, lps2, ss2) ∧
      repairThinToThick S lps2 sst2 ss2 = .ok (true, r.sst, lps3, r.ss) := by
  have hfail : ∀ (k : Nat) (t : List Stack), mpFail k t pdl guide.length ≠ .ok r := by
    intro k t hk
    unfold mpFail at hk
    obtain ⟨_, _, hk⟩ := bind_ok.1 hk
    have := Except.ok.inj hk
    rw [← this] at hs
    cases hs
  unfold repairMp at h
  split at h
  · cases h
  · cases h
  · exact absurd (Option.some.inj h) (hfail _ _)
  · rename_i sst1 ss1 h1
    have h := Option.some.inj h
    unfold mpThin at h
    obtain ⟨ref, _, h⟩ := bind_ok.1 h
    obtain ⟨⟨b2, sst2, lps2, ss2⟩, h2, h⟩ := bind_ok.1 h
    cases b2
    · exact absurd h (hfail _ _)
    dsimp only at h
    rw [if_pos rfl] at h
    obtain ⟨_, _, h⟩ := bind_ok.1 h
    unfold mpThick at h
    obtain ⟨⟨b3, sst3, lps3, ss3⟩, h3, h⟩ := bind_ok.1 h
    cases b3
    · exact absurd h (hfail _ _)
    dsimp only at h
    rw [if_pos rfl] at h
    obtain ⟨_, _, h⟩ := bind_ok.1 h
    obtain ⟨_, _, h⟩ := bind_ok.1 h
    have e := Except.ok.inj h
    subst e
    exact ⟨rfl, rfl, sst1, ss1, sst2, lps2, ss2, lps3, h1, h2, h3⟩

/-- C61: a successfully repaired strip has one row and one laminate per panel; every laminate consists of the plies of its
row and has the number of plies of its panel; each panel is obtained from the next thicker one by dropping plies only
(its laminate is a sub-laminate); and the laminate of the reference panel is the one returned by the repair of the reference
panel. -/
theorem C61_panels (a : ConsArgs) (P : RepairSetup) (cs : Int → Nat → ℚ) (ipoOk : Stack → Bool) (S : StripSetup)
    (ss : List Stack) (pdl : Table) (guide ssRef rowRef : Stack) (M : MpCase a P cs S ss pdl guide ssRef rowRef)
    (r : MpResult) (h : repairMp P ipoOk S ss pdl guide.length = some (.ok r)) (hs : r.success = true) :
    r.ss.length = S.r.nPlies.length ∧ r.sst.length = S.r.nPlies.length ∧
    (∃ sst1 ss1 ref, repairReferencePanel P ipoOk S.r.indRef ss pdl guide.length = some (.ok (true, sst1, ss1)) ∧
      ss1[S.r.indRef]? = some ref ∧ r.ss[S.r.indRef]? = some ref) ∧
    (∀ (p n : Nat), S.r.nPlies[p]? = some n → ∃ row s : Stack, r.sst[p]? = some row ∧ r.ss[p]? = some s ∧
      row.length = guide.length ∧ s = row.filter (fun x => x != -1) ∧ s.length = n ∧
      (P.c.sym = true → Spec.Symmetric row ∧ Spec.Symmetric s)) ∧
    ∀ (p : Nat), p + 1 < S.r.nPlies.length → ∃ row up s t : Stack, r.sst[p]? = some row ∧ r.sst[p + 1]? = some up ∧
      (∀ (j : Nat), row[j]? = up[j]? ∨ row[j]? = some (-1)) ∧ r.ss[p]? = some s ∧ r.ss[p + 1]? = some t ∧ s.Sublist t := by
  obtain ⟨_, _, sst1, ss1, sst2, lps2, ss2, lps3, h1, h2, h3⟩ := mp_success h hs
  obtain ⟨rr, ref, C, hlen, hf, hr, _, he, _, _⟩ := mp_start M h1
  obtain ⟨D, hD⟩ := mp_designed C (by rw [M.same]; exact M.noMinusOne) he h2
  obtain ⟨g1, g2, g3, g4, g5⟩ := C36_nested_panels S lps2 sst2 ss2 rr D _ lps3 _ h3
  refine ⟨g2, g1, ⟨sst1, ss1, ref, h1, hr, by rw [g3 _ le_rfl, hD, hr]⟩, fun p n hn => ?_, g5⟩
  obtain ⟨row, k1, k2, k3, k4, k5⟩ := g4 p (List.getElem?_eq_some_iff.1 hn).1
  rw [hn, Option.some.injEq] at k4
  refine ⟨row, _, k1, k3, by rw [k2, hlen], rfl, k4.symm, fun hsym => ?_⟩
  rw [← M.same] at hsym
  refine ⟨k5 hsym, ?_⟩
  have := k5 hsym
  unfold Spec.Symmetric at this ⊢
  rw [← List.filter_reverse, this]

/-- C61: the laminate of the reference panel of a successfully repaired strip consists of allowed plies and meets all the
lay-up rules that are switched on (the disorientation rule only without damage tolerance rule 1: the final check does not
test it otherwise). -/
theorem C61_reference_rules (a : ConsArgs) (P : RepairSetup) (cs : Int → Nat → ℚ) (ipoOk : Stack → Bool) (S : StripSetup)
    (ss : List Stack) (pdl : Table) (guide ssRef rowRef : Stack) (M : MpCase a P cs S ss pdl guide ssRef rowRef)
    (r : MpResult) (h : repairMp P ipoOk S ss pdl guide.length = some (.ok r)) (hs : r.success = true) :
    ∃ ref, r.ss[S.r.indRef]? = some ref ∧ (∀ x ∈ ref, x ∈ P.c.angles) ∧
      (P.c.damTol = true → (P.c.damTolAttr = .rule 1 ∧ Spec.DamTol1 ref) ∨
        (P.c.damTolAttr = .rule 2 ∧ Spec.DamTol2 ref) ∨ (P.c.damTolAttr = .rule 3 ∧ Spec.DamTol3 ref)) ∧
      (P.c.bal = true → Spec.Balanced ref) ∧
      (P.c.diso = true → ¬ (P.c.damTol = true ∧ P.c.damTolAttr = .rule 1) → Spec.PairsWithin P.c.deltaAngle ref (if P.c.damTol then 1 else 0)
        (if P.c.damTol then ref.length - 2 else ref.length)) ∧
      (P.c.contig = true → Spec.ContigOK P.c.nContig ref) ∧
      (P.c.rule10 = true → Spec.MeetsShares P.c.shares (1 / 10 ^ 15) (ref.count 0) (ref.count 90)
        (ref.count 45) (ref.count (-45)) ref.length) ∧
      (P.c.rule10 = true → P.c.rule10Abdalla = true → P.dist (Spec.inPlane cs ref.length ref) ≤ 1 / 10 ^ 10) := by
  obtain ⟨_, _, ⟨sst1, ss1, ref, h1, h2, h3⟩, _⟩ := C61_panels a P cs ipoOk S ss pdl guide ssRef rowRef M r h hs
  obtain ⟨ref', e, _, k2, _, k4, k5, k6, k7, k8, k9⟩ := C60_reference_rules a P cs ipoOk S.r.indRef ss pdl guide ssRef rowRef
    M.strip M.repair M.noMinusOne sst1 ss1 h1
  rw [h2] at e
  cases e
  exact ⟨ref, h3, k2, k4, k5, k6, k7, k8, k9⟩

theorem take_rows {k : Nat} {row rr : Stack} (hl : row.length = rr.length) (hk : k ≤ rr.length)
    (h : ∀ (j : Nat), j < k → row[j]? = rr[j]?) (hno : ∀ (j : Nat), j < k → rr[j]? ≠ some (-1)) :
    (row.filter (fun x => x != -1)).take k = (rr.filter (fun x => x != -1)).take k := by
  have hn : (-1 : Int) ∉ rr.take k := by
    intro hm
    obtain ⟨j, hj, e⟩ := List.getElem_of_mem hm
    rw [List.length_take] at hj
    apply hno j (by omega)
    rw [← e, List.getElem_take, List.getElem?_eq_getElem]
  have hb : ∀ (j : Nat), j < k → (rr.take k)[j]? = rr[j]? := by
    intro j hj
    rw [List.getElem?_take, if_pos hj]
  have hlen : (rr.take k).length = k := by rw [List.length_take]; omega
  rw [take_faces (k := k) (row := row) (b := rr.take k) (by omega) (by omega) (fun j hj => by rw [hb j hj, h j hj]) hn,
    take_faces (k := k) (row := rr) (b := rr.take k) (by omega) (by omega) (fun j hj => by rw [hb j hj]) hn]

/-- C61: the other panels of a successfully repaired strip consist of allowed plies, keep the covering plies of the
reference panel on both faces (if the layout does not drop them), and meet the contiguity rule and the 10% rule in its
lamination parameter variant; the panels thicker than the reference panel also meet the disorientation rule. -/
theorem C61_other_panels (a : ConsArgs) (P : RepairSetup) (cs : Int → Nat → ℚ) (ipoOk : Stack → Bool) (S : StripSetup)
    (ss : List Stack) (pdl : Table) (guide ssRef rowRef : Stack) (M : MpCase a P cs S ss pdl guide ssRef rowRef)
    (r : MpResult) (h : repairMp P ipoOk S ss pdl guide.length = some (.ok r)) (hs : r.success = true)
    (hcov : P.c.covering = true → P.c.nCovering ≤ ssRef.length ∧ ∀ (j : Nat), j < P.c.nCovering →
      rowRef[j]? ≠ some (-1) ∧ rowRef.reverse[j]? ≠ some (-1))
    (p : Nat) (hp : p < S.r.nPlies.length) (hpr : p ≠ S.r.indRef) :
    ∃ s ref : Stack, r.ss[p]? = some s ∧ r.ss[S.r.indRef]? = some ref ∧ (∀ x ∈ s, x ∈ P.c.angles) ∧
      (P.c.covering = true → s.take P.c.nCovering = ref.take P.c.nCovering ∧
        s.reverse.take P.c.nCovering = ref.reverse.take P.c.nCovering) ∧
      (P.c.contig = true → Spec.ContigOK P.c.nContig
        (if P.c.damTol = true ∧ P.c.damTolAttr.twoPlies = true then (s.drop 1).dropLast else s)) ∧
      (S.r.indRef < p → P.c.diso = true → Spec.DisoOK P.c.deltaAngle
        (if P.c.damTol = true ∧ P.c.damTolAttr.twoPlies = true then (s.drop 1).dropLast else s)) ∧
      (P.c.rule10 = true → P.c.rule10Abdalla = true → S.dist (S.lampam s) = 0) := by
  obtain ⟨_, _, sst1, ss1, sst2, lps2, ss2, lps3, h1, h2, h3⟩ := mp_success h hs
  obtain ⟨rr, ref, C, hlen, hf, hr, hang, he, _, hdrop⟩ := mp_start M h1
  obtain ⟨D, hD⟩ := mp_designed C (by rw [M.same]; exact M.noMinusOne) he h2
  obtain ⟨g1, g2, g3, g4, g5⟩ := C36_nested_panels S lps2 sst2 ss2 rr D _ lps3 _ h3
  have hcons : mkConstraints a = .ok S.c := by rw [M.same]; exact M.repair.cons
  have hrr : ∀ x ∈ rr, x ≠ -1 → x ∈ S.c.angles := by
    intro x hx hne
    rw [M.same]
    apply hang
    rw [← hf, List.mem_filter]
    exact ⟨hx, by simpa using hne⟩
  have hc26 : P.c.contig = true → 2 ≤ P.c.nContig ∧ P.c.nContig ≤ 6 := fun hc =>
    ⟨(M.repair.contig hc).1, (M.repair.contig hc).2.1⟩
  have hrefl : ref.length = ssRef.length := by
    have e1 := C.count
    rw [M.count, hf, Option.some.injEq] at e1
    exact e1.symm
  rw [← M.same] at hcov hc26 ⊢
  rcases Nat.lt_or_ge p S.r.indRef with hlt | hge
  · obtain ⟨row, s, k1, k2, k3, k4, k5, k6⟩ := C34_rules S _ sst1 ss1 rr C sst2 lps2 ss2 h2 p hlt
    obtain ⟨_, _, _, hn⟩ := C34_nested_panels S _ sst1 ss1 rr C sst2 lps2 ss2 h2
    obtain ⟨row', up, n1, _, n3, _, n5, _⟩ := hn p hlt
    rw [k1] at n1
    cases n1
    rw [k2] at n5
    cases n5
    have hb := designed_below D (S.r.indRef - p) p (by omega) row k1
    refine ⟨_, ref, by rw [g3 p hlt.le, k2], by rw [g3 _ le_rfl, hD, hr], fun x hx => ?_, fun hc => ?_,
      fun hc => k5 hc (hc26 hc).1 (hc26 hc).2, fun hl => by omega, k6⟩
    · obtain ⟨x1, x2⟩ := List.mem_filter.1 hx
      obtain ⟨j, hj, e⟩ := List.getElem_of_mem x1
      have hne : x ≠ -1 := by simpa using x2
      have hxj : row[j]? = some x := by rw [List.getElem?_eq_getElem hj, e]
      rcases hb j with e | e
      · exact hrr x (List.mem_of_getElem? (e ▸ hxj)) hne
      · rw [hxj] at e
        exact absurd (Option.some.inj e) hne
    · obtain ⟨c1, c2⟩ := hcov hc
      have hwr := refLen M
      have hle : ref.length ≤ rr.length := by rw [← hf]; exact List.length_filter_le _ _
      rw [← hf]
      refine ⟨take_rows n3 (by omega) (fun j hj => k3 hc j (by omega) (Or.inl hj)) (fun j hj => ?_), ?_⟩
      · rw [ne_eq, ← hdrop j]
        exact (c2 j hj).1
      · rw [← List.filter_reverse, ← List.filter_reverse]
        refine take_rows (by simpa using n3) (by simp; omega) (fun j hj => ?_) (fun j hj => ?_)
        · rw [List.getElem?_reverse (by omega), List.getElem?_reverse (by omega), n3]
          exact k3 hc _ (by omega) (Or.inr (by omega))
        · have := (c2 j hj).2
          rw [List.getElem?_reverse (by omega), hwr, ne_eq, hdrop] at this
          rw [List.getElem?_reverse (by omega), hlen]
          exact this
  · obtain ⟨s, ref', k1, k2, k3, k4, k5, k6, k7, k8⟩ := C36_rules a S lps2 sst2 ss2 rr hcons D hrr _ lps3 _ h3 p (by omega) hp
    rw [hD, hr] at k2
    cases k2
    exact ⟨s, ref, k1, by rw [g3 _ le_rfl, hD, hr], k3, fun hc => k4 hc (by rw [hrefl]; exact (hcov hc).1),
      fun hc => k6 hc (hc26 hc).1 (hc26 hc).2, fun _ => k7, k8⟩

/-- C61: with the balance rule, the laminate of each panel of a successfully repaired strip is balanced, or lacks one ply (if
the panel is thinner than the reference panel) or has one in excess (if it is thicker), one on each side of the mid-plane for
symmetric laminates. -/
theorem C61_balance (a : ConsArgs) (P : RepairSetup) (cs : Int → Nat → ℚ) (ipoOk : Stack → Bool) (S : StripSetup)
    (ss : List Stack) (pdl : Table) (guide ssRef rowRef : Stack) (M : MpCase a P cs S ss pdl guide ssRef rowRef)
    (r : MpResult) (h : repairMp P ipoOk S ss pdl guide.length = some (.ok r)) (hs : r.success = true)
    (hb : P.c.bal = true) (p : Nat) (hp : p < S.r.nPlies.length) :
    ∃ s, r.ss[p]? = some s ∧ (Spec.Balanced s ∨ p ≠ S.r.indRef ∧ ∃ b : Int, ∀ x : Int, x ≠ 0 → x ≠ 90 → x ≠ -90 →
      (s.count x : Int) - s.count (-x) = (if p < S.r.indRef then -1 else 1) *
        ((if P.c.sym then 2 else 1) * ((if x = b then 1 else 0) - (if x = -b then 1 else 0)))) := by
  obtain ⟨_, _, sst1, ss1, sst2, lps2, ss2, lps3, h1, h2, h3⟩ := mp_success h hs
  obtain ⟨rr, ref, C, hlen, hf, hr, hang, he, hbal, _⟩ := mp_start M h1
  obtain ⟨D, hD⟩ := mp_designed C (by rw [M.same]; exact M.noMinusOne) he h2
  obtain ⟨g1, g2, g3, g4, g5⟩ := C36_nested_panels S lps2 sst2 ss2 rr D _ lps3 _ h3
  have hcons : mkConstraints a = .ok S.c := by rw [M.same]; exact M.repair.cons
  have hrr : ∀ x ∈ rr, x ≠ -1 → x ∈ S.c.angles := by
    intro x hx hne
    rw [M.same]
    apply hang
    rw [← hf, List.mem_filter]
    exact ⟨hx, by simpa using hne⟩
  have hbr := hbal hb
  rw [← hf] at hbr
  have hb' : S.c.bal = true := by rw [M.same]; exact hb
  rcases Nat.lt_trichotomy p S.r.indRef with hlt | e | hgt
  · obtain ⟨s, k1, k2⟩ := C34_balance a S _ sst1 ss1 rr C hcons hb' D.noMinusOne hrr hbr sst2 lps2 ss2 h2 p hlt
    refine ⟨s, by rw [g3 p hlt.le, k1], k2.imp_right (fun ⟨b, k⟩ => ⟨by omega, b, fun x x1 x2 x3 => ?_⟩)⟩
    rw [k x x1 x2 x3, if_pos hlt, M.same]
    ring
  · subst e
    refine ⟨ref, by rw [g3 _ le_rfl, hD, hr], Or.inl (hbal hb)⟩
  · obtain ⟨s, k1, k2⟩ := C36_balance a S lps2 sst2 ss2 rr hcons D hb' hrr hbr _ lps3 _ h3 p hgt hp
    refine ⟨s, k1, k2.imp_right (fun ⟨b, k⟩ => ⟨by omega, b, fun x x1 x2 x3 => ?_⟩)⟩
    rw [k x x1 x2 x3, if_neg (show ¬ p < S.r.indRef by omega), M.same, one_mul]

/-! ### Unsuccessful repairs and exceptions -/

/-- The table after the first step is the one of its thickest laminate and the layout. -/
theorem mp_table {a : ConsArgs} {P : RepairSetup} {cs : Int → Nat → ℚ} {ipoOk : Stack → Bool} {S : StripSetup}
    {ss : List Stack} {pdl : Table} {guide ssRef rowRef : Stack} (M : MpCase a P cs S ss pdl guide ssRef rowRef)
    {sst1 : Table} {ss1 : List Stack}
    (h : repairReferencePanel P ipoOk S.r.indRef ss pdl guide.length = some (.ok (true, sst1, ss1))) :
    convertSsToSst ss1 pdl guide.length = .ok sst1 ∧ ∃ g, ss1.getLast? = some g ∧ g.length = guide.length := by
  obtain ⟨h1, s, q, s', ref, rr, Sr, k1, k2, k3, k4, k5, k6, k7, k8, k9⟩ :=
    referencePanel_ok M.strip M.repair M.noMinusOne h
  have hne : pdl ≠ [] := by
    rintro rfl
    have := M.strip.refRow
    simp at this
  have hlastrow : pdl[pdl.length - 1]? = some (pdl.getLast hne) := by
    rw [← List.getLast?_eq_getElem?, List.getLast?_eq_some_getLast hne]
  obtain ⟨g, hg, hglen, hgc⟩ := k8.2 _ _ hlastrow
  have hfull : (-1 : Int) ∉ pdl.getLast hne := M.strip.lastFull _ (List.getLast?_eq_some_getLast hne)
  have hno : ∀ (j : Nat), g[j]? ≠ some (-1) := by
    intro j hj
    have := ((k9 _ _ _ hlastrow hg).2 j).2 hj
    exact hfull (List.mem_of_getElem? this)
  have hlast : ss1.getLast? = some g := by
    rw [h1]
    unfold convertSstToSs
    rw [List.getLast?_eq_getElem?, List.length_map, k8.1, List.getElem?_map, hg]
    simp only [Option.map_some]
    rw [row_of_no_drop hno]
  refine ⟨?_, g, hlast, hglen⟩
  unfold convertSsToSst
  rw [hlast]
  dsimp only
  unfold convertSsGuideToSst
  rw [if_neg (by omega)]
  congr 1
  apply List.ext_getElem?
  intro i
  rw [List.getElem?_map]
  cases hi : pdl[i]? with
  | none =>
    rw [Option.map_none, List.getElem?_eq_none]
    rw [k8.1]
    exact List.getElem?_eq_none_iff.1 hi
  | some row =>
    obtain ⟨r, e1, e2, e3⟩ := k8.2 i row hi
    rw [e1, Option.map_some]
    congr 1
    have hw := M.strip.width row (List.mem_of_getElem? hi)
    have hwr := refLen M
    have hwl := M.strip.width (pdl.getLast hne) (List.getLast_mem hne)
    apply List.ext_getElem?
    intro j
    rw [guideRow_getElem? _ _ (by omega)]
    by_cases hj : j < guide.length
    · have d1 : row[j]? = some row[j] := List.getElem?_eq_getElem (by omega)
      have d2 : rowRef[j]? = some rowRef[j] := List.getElem?_eq_getElem (by omega)
      have d3 : (pdl.getLast hne)[j]? = some (pdl.getLast hne)[j] := List.getElem?_eq_getElem (by omega)
      have d4 : g[j]? = some g[j] := List.getElem?_eq_getElem (by omega)
      have hl : (pdl.getLast hne)[j] ≠ -1 := fun e => hfull (e ▸ List.getElem_mem _)
      obtain ⟨a1, a2, a3⟩ := e3 j _ _ d1 d2
      obtain ⟨_, b2, b3⟩ := hgc j _ _ d3 d2
      rw [d1, d4]
      by_cases hd : row[j] = -1
      · simp [hd, a1 hd]
      · have : r[j]? = g[j]? := by
          by_cases hdr : rowRef[j] = -1
          · rw [a3 hd hdr, b3 hl hdr]
          · rw [a2 hd hdr, b2 hl hdr]
        rw [this, d4]
        simp [hd]
    · rw [List.getElem?_eq_none (by omega : g.length ≤ j), List.getElem?_eq_none (by omega : r.length ≤ j)]

theorem mpFail_ok {k : Nat} {ss : List Stack} {pdl : Table} {w : Nat} {g : Stack} (h : ss.getLast? = some g)
    (hl : g.length ≤ w) : ∃ sst, convertSsToSst ss pdl w = .ok sst ∧
      mpFail k ss pdl w = .ok { success := false, ss := ss, sst := sst, pdl := pdl, step := k } := by
  have e : convertSsToSst ss pdl w = .ok (pdl.map (guideRow g)) := by
    unfold convertSsToSst
    rw [h]
    dsimp only
    unfold convertSsGuideToSst
    rw [if_neg (by omega)]
  refine ⟨_, e, ?_⟩
  unfold mpFail
  rw [e]
  rfl

theorem thin_false {S : StripSetup} {lampams lps : List (List ℚ)} {sst sst' : Table} {ss ss' : List Stack}
    (h : repairThickToThin S lampams sst ss = .ok (false, sst', lps, ss')) : ss' = ss := by
  unfold repairThickToThin at h
  obtain ⟨_, _, h⟩ := bind_ok.1 h
  obtain ⟨_, _, h⟩ := bind_ok.1 h
  obtain ⟨_, _, h⟩ := bind_ok.1 h
  by_cases ht : S.r.thin.isEmpty = true
  · rw [if_pos ht] at h
    cases h
  · rw [if_neg ht] at h
    obtain ⟨_, _, h⟩ := bind_ok.1 h
    obtain ⟨_, _, h⟩ := bind_ok.1 h
    obtain ⟨_, _, h⟩ := bind_ok.1 h
    unfold thinSelect at h
    split at h
    · cases h
      rfl
    · unfold thinFinish at h
      obtain ⟨_, _, h⟩ := bind_ok.1 h
      obtain ⟨_, _, h⟩ := bind_ok.1 h
      obtain ⟨_, _, h⟩ := bind_ok.1 h
      obtain ⟨_, _, h⟩ := bind_ok.1 h
      obtain ⟨_, _, h⟩ := bind_ok.1 h
      obtain ⟨_, _, h⟩ := bind_ok.1 h
      cases h

theorem thick_false {S : StripSetup} {lampams lps : List (List ℚ)} {sst sst' : Table} {ss ss' : List Stack}
    (h : repairThinToThick S lampams sst ss = .ok (false, sst', lps, ss')) : ss' = ss := by
  unfold repairThinToThick at h
  obtain ⟨_, _, h⟩ := bind_ok.1 h
  obtain ⟨_, _, h⟩ := bind_ok.1 h
  obtain ⟨_, _, h⟩ := bind_ok.1 h
  obtain ⟨_, _, h⟩ := bind_ok.1 h
  by_cases ht : S.r.thick.isEmpty = true
  · rw [if_pos ht] at h
    cases h
  · rw [if_neg ht] at h
    obtain ⟨_, _, h⟩ := bind_ok.1 h
    obtain ⟨_, _, h⟩ := bind_ok.1 h
    unfold thickSelect at h
    split at h
    · cases h
      rfl
    · unfold thickFinish at h
      obtain ⟨_, _, h⟩ := bind_ok.1 h
      obtain ⟨_, _, h⟩ := bind_ok.1 h
      obtain ⟨_, _, h⟩ := bind_ok.1 h
      obtain ⟨_, _, h⟩ := bind_ok.1 h
      obtain ⟨_, _, h⟩ := bind_ok.1 h
      obtain ⟨_, _, h⟩ := bind_ok.1 h
      cases h

theorem refUnchanged_ok {i : Nat} {ref : Stack} {ss : List Stack} {msg : String} (h : ss[i]? = some ref) :
    refUnchanged i ref ss msg = .ok () := by
  unfold refUnchanged
  rw [pyGet_eq_ok.2 h]
  change requirePy _ _ = _
  unfold requirePy
  rw [if_pos (by simp)]

/-- The outcome of `repair_mp` in terms of its three steps. -/
inductive MpOutcome (P : RepairSetup) (ipoOk : Stack → Bool) (S : StripSetup) (ss : List Stack) (pdl : Table) (w : Nat) :
    Py MpResult → Prop
  | error1 (e : Err) (h : repairReferencePanel P ipoOk S.r.indRef ss pdl w = some (.error e)) : MpOutcome P ipoOk S ss pdl w (.error e)
  | fail1 (sst1 sst : Table) (h : repairReferencePanel P ipoOk S.r.indRef ss pdl w = some (.ok (false, sst1, ss)))
      (hc : convertSsToSst ss pdl w = .ok sst) : MpOutcome P ipoOk S ss pdl w (.ok ⟨false, ss, sst, pdl, 1⟩)
  | error2 (sst1 : Table) (ss1 : List Stack) (e : Err)
      (h : repairReferencePanel P ipoOk S.r.indRef ss pdl w = some (.ok (true, sst1, ss1)))
      (h2 : repairThickToThin S (ss1.map S.lampam) sst1 ss1 = .error e) : MpOutcome P ipoOk S ss pdl w (.error e)
  | fail2 (sst1 sst2 : Table) (ss1 : List Stack) (lps : List (List ℚ))
      (h : repairReferencePanel P ipoOk S.r.indRef ss pdl w = some (.ok (true, sst1, ss1)))
      (h2 : repairThickToThin S (ss1.map S.lampam) sst1 ss1 = .ok (false, sst2, lps, ss1)) :
      MpOutcome P ipoOk S ss pdl w (.ok ⟨false, ss1, sst1, pdl, 2⟩)
  | error3 (sst1 sst2 : Table) (ss1 ss2 : List Stack) (lps : List (List ℚ)) (e : Err)
      (h : repairReferencePanel P ipoOk S.r.indRef ss pdl w = some (.ok (true, sst1, ss1)))
      (h2 : repairThickToThin S (ss1.map S.lampam) sst1 ss1 = .ok (true, sst2, lps, ss2))
      (h3 : repairThinToThick S lps sst2 ss2 = .error e) : MpOutcome P ipoOk S ss pdl w (.error e)
  | fail3 (sst1 sst2 sst3 sst : Table) (ss1 ss2 : List Stack) (lps lps3 : List (List ℚ))
      (h : repairReferencePanel P ipoOk S.r.indRef ss pdl w = some (.ok (true, sst1, ss1)))
      (h2 : repairThickToThin S (ss1.map S.lampam) sst1 ss1 = .ok (true, sst2, lps, ss2))
      (h3 : repairThinToThick S lps sst2 ss2 = .ok (false, sst3, lps3, ss2))
      (hc : convertSsToSst ss2 pdl w = .ok sst) : MpOutcome P ipoOk S ss pdl w (.ok ⟨false, ss2, sst, pdl, 3⟩)
  | success (sst1 sst2 sst3 : Table) (ss1 ss2 ss3 : List Stack) (lps lps3 : List (List ℚ))
      (h : repairReferencePanel P ipoOk S.r.indRef ss pdl w = some (.ok (true, sst1, ss1)))
      (h2 : repairThickToThin S (ss1.map S.lampam) sst1 ss1 = .ok (true, sst2, lps, ss2))
      (h3 : repairThinToThick S lps sst2 ss2 = .ok (true, sst3, lps3, ss3)) :
      MpOutcome P ipoOk S ss pdl w (.ok ⟨true, ss3, sst3, pdl, 4⟩)

/-- C61: the repair returns the result of its last step, together with the layout it was given and the number of the
step that failed; the exceptions "Reference stacking sequence modified" and "Wrong ply counts" of its own checks are never raised, and the
conversions to tables do not fail: every exception is one of the three steps'.  After a failure of the second step the table
is that of the repaired reference panel. -/
theorem C61_outcome (a : ConsArgs) (P : RepairSetup) (cs : Int → Nat → ℚ) (ipoOk : Stack → Bool) (S : StripSetup)
    (ss : List Stack) (pdl : Table) (guide ssRef rowRef : Stack) (M : MpCase a P cs S ss pdl guide ssRef rowRef)
    (r : Py MpResult) (h : repairMp P ipoOk S ss pdl guide.length = some r) :
    MpOutcome P ipoOk S ss pdl guide.length r := by
  unfold repairMp at h
  split at h
  · cases h
  · rename_i e h1
    cases h
    exact .error1 e h1
  · rename_i sst1 ss1 h1
    have e := C60_failure _ _ _ _ _ _ _ _ h1
    subst e
    obtain ⟨sst, hc, e⟩ := mpFail_ok (k := 1) (pdl := pdl) M.strip.last le_rfl
    rw [e] at h
    cases h
    exact .fail1 sst1 sst h1 hc
  · rename_i sst1 ss1 h1
    obtain ⟨rr, ref, C, hlen, hf, hr, _, he, _, _⟩ := mp_start M h1
    obtain ⟨ht, g, hg, hgl⟩ := mp_table M h1
    replace h := Option.some.inj h
    unfold mpThin at h
    rw [pyGet_eq_ok.2 hr] at h
    change ((repairThickToThin S (ss1.map S.lampam) sst1 ss1 >>= _) : Py MpResult) = _ at h
    cases h2 : repairThickToThin S (ss1.map S.lampam) sst1 ss1 with
    | error e =>
      rw [h2] at h
      cases h
      exact .error2 sst1 ss1 e h1 h2
    | ok v =>
      obtain ⟨b2, sst2, lps2, ss2⟩ := v
      rw [h2] at h
      cases b2
      · have e := thin_false h2
        subst e
        obtain ⟨sst, hc, e⟩ := mpFail_ok (k := 2) (pdl := pdl) hg hgl.le
        rw [ht] at hc
        cases hc
        change mpFail 2 ss2 pdl guide.length = r at h
        rw [e] at h
        cases h
        exact .fail2 sst1 sst2 ss2 lps2 h1 h2
      · obtain ⟨D, hD⟩ := mp_designed C (by rw [M.same]; exact M.noMinusOne) he h2
        change (refUnchanged S.r.indRef ref ss2 _ >>= fun _ => mpThick S pdl guide.length ref (true, sst2, lps2, ss2)) = r at h
        rw [refUnchanged_ok (by rw [hD, hr])] at h
        change mpThick S pdl guide.length ref (true, sst2, lps2, ss2) = r at h
        unfold mpThick at h
        dsimp only at h
        cases h3 : repairThinToThick S lps2 sst2 ss2 with
        | error e =>
          rw [h3] at h
          cases h
          exact .error3 sst1 sst2 ss1 ss2 lps2 e h1 h2 h3
        | ok v =>
          obtain ⟨b3, sst3, lps3, ss3⟩ := v
          rw [h3] at h
          cases b3
          · have e := thick_false h3
            subst e
            obtain ⟨h34a, h34b, h34c, _⟩ := C34_nested_panels S _ sst1 ss1 rr C sst2 lps2 ss3 h2
            have hg2 : ss3.getLast? = some g := by
              have hi : S.r.indRef ≤ ss3.length - 1 := by
                have := (List.getElem?_eq_some_iff.1 (hD.trans hr)).1
                omega
              rw [List.getLast?_eq_getElem?, (h34c _ hi).2, h34b, ← List.getLast?_eq_getElem?, hg]
            obtain ⟨sst, hc, e⟩ := mpFail_ok (k := 3) (pdl := pdl) hg2 hgl.le
            change mpFail 3 ss3 pdl guide.length = r at h
            rw [e] at h
            cases h
            exact .fail3 sst1 sst2 sst3 sst ss1 ss3 lps2 lps3 h1 h2 h3 hc
          · obtain ⟨g1, g2, g3, g4, g5⟩ := C36_nested_panels S lps2 sst2 ss2 rr D _ lps3 _ h3
            have e1 := refUnchanged_ok (msg := "\nReference stacking sequence modified during blending step 4.3")
              (show ss3[S.r.indRef]? = some ref by rw [g3 _ le_rfl, hD, hr])
            have e2 : ((List.range S.r.nPlies.length).all
                (fun i => (ss3.getD i []).length == S.r.nPlies.getD i 0)) = true := by
              rw [List.all_eq_true]
              intro i hi
              rw [List.mem_range] at hi
              obtain ⟨row, k1, k2, k3, k4, k5⟩ := g4 i hi
              rw [List.getD_eq_getElem?_getD, k3, List.getD_eq_getElem?_getD, k4]
              simp
            have e3 : (requirePy ((List.range S.r.nPlies.length).all
                (fun i => (ss3.getD i []).length == S.r.nPlies.getD i 0)) "Wrong ply counts in the laminate.") = .ok () := by
              unfold requirePy
              rw [if_pos e2]
            change (refUnchanged S.r.indRef ref ss3 _ >>= fun _ => requirePy _ _ >>= fun _ => .ok _) = r at h
            rw [e1] at h
            change (requirePy _ _ >>= fun _ => .ok _) = r at h
            rw [e3] at h
            cases h
            exact .success sst1 sst2 sst3 ss1 ss2 ss3 lps2 lps3 h1 h2 h3

/-! ### Examples -/

/-- A row of a layout of `w` columns, with drops at the given positions on both sides of the mid-plane. -/
def mpRow (w : Nat) (l : List Nat) : Stack :=
  (List.range w).map (fun (i : Nat) => if i ∈ l ∨ (w - 1 - i) ∈ l then -1 else (i : Int))

/-- A symmetric laminate. -/
def mpSym (l : Stack) : Stack := l ++ l.reverse

/-- Panels with given targets, equal weights and node limits 1. -/
def mpSetup (c : Cons) (r : Reduced) (targets : Table) : StripSetup :=
  { stripSetup c r targets with localLimit := 1, globalLimit := 1 }

/-- A strip of symmetric laminates repaired with the default parameters. -/
theorem mpCase_of (a : ConsArgs) (mem flex : Bool) (c : Cons) (r : Reduced) (targets : Table) (plies : List Nat) (nRef : Int)
    (bs : List (Nat × Nat)) (bw : List ((Nat × Nat) × ℚ)) (ss : List Stack) (pdl : Table) (guide ssRef rowRef : Stack)
    (hr : mkReduced plies true nRef bs bw = .ok r) (h2 : c.angles = [-45, 0, 45, 90]) (hs : c.sym = true)
    (hrep : RepairCase a (ssSetup c mem flex) trig4 ssRef) (strip : StripCase pdl ss guide r.indRef ssRef rowRef)
    (hpar : ∀ n ∈ plies, ∀ m ∈ plies, n % 2 = m % 2) (hpan : pdl.length = r.nPlies.length)
    (hfull : r.nPlies[r.nPlies.length - 1]? = some guide.length) (hcount : r.nPlies[r.indRef]? = some ssRef.length)
    (hdrops : rowRef.map (fun x => decide (x = -1)) = rowRef.reverse.map (fun x => decide (x = -1))) :
    MpCase a (ssSetup c mem flex) trig4 (mpSetup c r targets) ss pdl guide ssRef rowRef where
  strip := strip
  repair := hrep
  same := rfl
  noMinusOne := by show (-1 : Int) ∉ c.angles; rw [h2]; decide
  reduced := ⟨_, _, _, _, by show mkReduced _ c.sym _ _ _ = .ok r; rw [hs]; exact hr, fun _ => hpar⟩
  panels := hpan
  full := hfull
  count := hcount
  symm := fun _ j => by
    have := congrArg (fun l => l[j]?) hdrops
    simp only [List.getElem?_map] at this
    constructor <;> intro h <;> rw [h] at this
    · cases h' : rowRef.reverse[j]? with
      | none => rw [h'] at this; cases this
      | some y => rw [h'] at this; simpa using this.symm
    · cases h' : rowRef[j]? with
      | none => rw [h'] at this; cases this
      | some y => rw [h'] at this; simpa using this

end Bella
