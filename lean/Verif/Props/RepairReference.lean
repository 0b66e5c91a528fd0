import Verif.Model.RepairReference
import Verif.Props.RepairSs
import Verif.Props.FormatPdl
import Verif.Props.OneStack
/-
C60: the repair of the reference panel of a blending strip, `repair_reference_panel`.
-/
namespace Bella

theorem countP_drops_le : ∀ (p q : Stack), p.length = q.length →
    (∀ (j : Nat), p[j]? = some (-1) → q[j]? = some (-1)) →
    q.countP (fun x => x != -1) ≤ p.countP (fun x => x != -1) ∧
    (p.countP (fun x => x != -1) = q.countP (fun x => x != -1) →
      ∀ (j : Nat), q[j]? = some (-1) → p[j]? = some (-1)) := by
  intro p
  induction p with
  | nil => intro q h _; cases q with | nil => simp | cons a t => simp at h
  | cons a p ih =>
    intro q h hd
    cases q with
    | nil => simp at h
    | cons b q =>
      have h0 := hd 0
      obtain ⟨i1, i2⟩ := ih q (by simpa using h) (fun j hj => by simpa using hd (j + 1) (by simpa using hj))
      simp only [List.getElem?_cons_zero, Option.some.injEq] at h0
      simp only [List.countP_cons]
      by_cases ha : a = -1
      · have hb := h0 ha
        subst ha hb
        simp only [bne_self_eq_false, Bool.false_eq_true, if_false, Nat.add_zero]
        refine ⟨i1, fun e j => ?_⟩
        cases j with
        | zero => simp
        | succ j => simpa using i2 e j
      · rw [if_pos (by simpa using ha : (a != -1) = true)]
        by_cases hb : b = -1
        · subst hb
          simp only [bne_self_eq_false, Bool.false_eq_true, if_false, Nat.add_zero]
          exact ⟨by omega, fun e => by omega⟩
        · rw [if_pos (by simpa using hb : (b != -1) = true)]
          refine ⟨by omega, fun e j => ?_⟩
          cases j with
          | zero => simp [hb]
          | succ j => simpa using i2 (by omega) j

theorem countP_sstRow (row : Stack) : (sstRowToSs row).length = row.countP (fun x => x != -1) := by
  rw [sstRowToSs_eq, List.countP_eq_length_filter]

/-- A blending strip: the layout `pdl` of the panels, the last of which has all the plies (`guide` is its laminate),
and the laminates `reducedSs`; the laminate of the reference panel has the plies of its row of the layout. -/
structure StripCase (pdl : Table) (reducedSs : List Stack) (guide : Stack) (indRef : Nat) (ssRef rowRef : Stack) :
    Prop where
  panels : reducedSs.length = pdl.length
  last : reducedSs.getLast? = some guide
  guideFull : (-1 : Int) ∉ guide
  width : ∀ row ∈ pdl, row.length = guide.length
  lastFull : ∀ row, pdl.getLast? = some row → (-1 : Int) ∉ row
  ref : reducedSs[indRef]? = some ssRef
  refRow : pdl[indRef]? = some rowRef
  count : ssRef.length = rowRef.countP (fun x => x != -1)

/-- Each cell of the table `sst` is a drop where the layout has one, the ply of the reference panel where that
panel has one, and the ply of the guide otherwise. -/
def Follows (pdl sst : Table) (guide rowRef rr : Stack) : Prop :=
  sst.length = pdl.length ∧ ∀ (i : Nat) (row : Stack), pdl[i]? = some row →
    ∃ r, sst[i]? = some r ∧ r.length = guide.length ∧
      ∀ (j : Nat) (d dRef : Int), row[j]? = some d → rowRef[j]? = some dRef →
        (d = -1 → r[j]? = some (-1)) ∧ (d ≠ -1 → dRef ≠ -1 → r[j]? = rr[j]?) ∧
        (d ≠ -1 → dRef = -1 → r[j]? = guide[j]?)

theorem refTable_spec {pdl : Table} {ssBefore : List Stack} {guide : Stack} {indRef : Nat} {s rowRef : Stack}
    (hlast : ssBefore.getLast? = some guide) (hg : (-1 : Int) ∉ guide) (hs : (-1 : Int) ∉ s)
    (hw : ∀ row ∈ pdl, row.length = guide.length) (hr : pdl[indRef]? = some rowRef)
    (hc : s.length = rowRef.countP (fun x => x != -1)) :
    ∃ sst rr, refTable s indRef pdl ssBefore guide.length = .ok sst ∧ sst[indRef]? = some rr ∧
      sstRowToSs rr = s ∧ Follows pdl sst guide rowRef rr ∧
      (∀ (j : Nat), rowRef[j]? = some (-1) ↔ rr[j]? = some (-1)) := by
  obtain ⟨cols, h1, h2, h3, h4, h5⟩ := C17_new_reference s indRef pdl ssBefore guide hlast hg hs hw rowRef hr hc
  have hlt : indRef < pdl.length := (List.getElem?_eq_some_iff.1 hr).1
  have hrow : ∀ i, i < pdl.length → (rowsOf pdl.length cols)[i]? = some (cols.map (fun (col : Stack) => col.getD i (-1))) := by
    intro i hi
    unfold rowsOf
    rw [List.getElem?_map, List.getElem?_range hi]
    rfl
  have hcell : ∀ (i j : Nat) (c : Stack), i < pdl.length → cols[j]? = some c →
      (cols.map (fun (col : Stack) => col.getD i (-1)))[j]? = c[i]? := by
    intro i j c hi hj
    rw [List.getElem?_map, hj]
    have hl := h3 c (List.mem_of_getElem? hj)
    simp only [Option.map_some]
    rw [List.getD_eq_getElem _ _ (by omega), List.getElem?_eq_getElem]
  have hrl := hw rowRef (List.mem_of_getElem? hr)
  refine ⟨rowsOf pdl.length cols, cols.map (fun (col : Stack) => col.getD indRef (-1)), ?_, hrow _ hlt, ?_, ?_, ?_⟩
  · unfold refTable
    rw [h1]
    rfl
  · unfold convertSstToSs at h4
    simpa using h4
  · refine ⟨by simp [rowsOf], fun i row hi => ?_⟩
    have hil : i < pdl.length := (List.getElem?_eq_some_iff.1 hi).1
    refine ⟨_, hrow i hil, by simpa using h2, fun j d dRef hd hdr => ?_⟩
    have hjl : j < guide.length := by
      have := (List.getElem?_eq_some_iff.1 hdr).1
      omega
    obtain ⟨c, hcj⟩ : ∃ c, cols[j]? = some c := ⟨_, List.getElem?_eq_getElem (by omega)⟩
    obtain ⟨g1, g2, g3⟩ := h5 i j row c d dRef guide[j] hi hcj hd hdr (List.getElem?_eq_getElem hjl)
    rw [hcell i j c hil hcj, hcell indRef j c hlt hcj]
    exact ⟨g1, g2, fun a b => by rw [g3 a b, List.getElem?_eq_getElem hjl]⟩
  · have hle : ∀ (j : Nat), rowRef[j]? = some (-1) →
        (cols.map (fun (col : Stack) => col.getD indRef (-1)))[j]? = some (-1) := by
      intro j hj
      have hjl : j < guide.length := by
        have := (List.getElem?_eq_some_iff.1 hj).1
        omega
      obtain ⟨c, hcj⟩ : ∃ c, cols[j]? = some c := ⟨_, List.getElem?_eq_getElem (by omega)⟩
      obtain ⟨g1, _, _⟩ := h5 indRef j rowRef c (-1) (-1) guide[j] hr hcj hj hj (List.getElem?_eq_getElem hjl)
      rw [hcell indRef j c hlt hcj]
      exact g1 rfl
    have hcnt := countP_drops_le rowRef (cols.map (fun (col : Stack) => col.getD indRef (-1)))
      (by simp; omega) hle
    refine fun j => ⟨hle j, hcnt.2 ?_ j⟩
    have e : sstRowToSs (cols.map (fun (col : Stack) => col.getD indRef (-1))) = s := by
      unfold convertSstToSs at h4
      simpa using h4
    rw [← hc, ← e, countP_sstRow]

/-- The drops of each row of the table are those of the layout. -/
theorem follows_drops {pdl sst : Table} {guide rowRef rr : Stack} (hg : (-1 : Int) ∉ guide)
    (hw : ∀ row ∈ pdl, row.length = guide.length) (hwr : rowRef.length = guide.length)
    (hrr : ∀ (j : Nat), rowRef[j]? = some (-1) ↔ rr[j]? = some (-1))
    (F : Follows pdl sst guide rowRef rr) {i : Nat} {row r : Stack} (hi : pdl[i]? = some row) (hr : sst[i]? = some r) :
    r.length = guide.length ∧ ∀ (j : Nat), row[j]? = some (-1) ↔ r[j]? = some (-1) := by
  obtain ⟨r', e, h1, h2⟩ := F.2 i row hi
  rw [hr] at e
  cases e
  refine ⟨h1, fun j => ?_⟩
  by_cases hj : j < guide.length
  · have hwi := hw row (List.mem_of_getElem? hi)
    have d1 : row[j]? = some row[j] := List.getElem?_eq_getElem (by omega)
    have d2 : rowRef[j]? = some rowRef[j] := List.getElem?_eq_getElem (by omega)
    obtain ⟨g1, g2, g3⟩ := h2 j _ _ d1 d2
    rw [d1, Option.some.injEq]
    refine ⟨g1, fun h => ?_⟩
    by_contra hne
    by_cases hdr : rowRef[j] = -1
    · have := g3 hne hdr
      rw [h, List.getElem?_eq_getElem hj, Option.some.injEq] at this
      exact hg (this ▸ List.getElem_mem hj)
    · have := g2 hne hdr
      rw [h] at this
      have := (hrr j).2 this.symm
      rw [d2, Option.some.injEq] at this
      exact hdr this
  · have hwi := hw row (List.mem_of_getElem? hi)
    rw [List.getElem?_eq_none (by omega), List.getElem?_eq_none (by omega)]

theorem row_of_no_drop {r : Stack} (h : ∀ (j : Nat), r[j]? ≠ some (-1)) : sstRowToSs r = r := by
  rw [sstRowToSs_eq, List.filter_eq_self]
  intro x hx
  obtain ⟨j, hj, e⟩ := List.getElem_of_mem hx
  rw [bne_iff_ne]
  rintro rfl
  exact h j (by rw [List.getElem?_eq_getElem hj, e])

/-- The steps after the repair for disorientation and contiguity. -/
theorem refFinish_spec {P : RepairSetup} {ipoOk : Stack → Bool} {indRef : Nat} {reducedSs : List Stack} {pdl : Table}
    {guide ssRef rowRef : Stack} (C : StripCase pdl reducedSs guide indRef ssRef rowRef) {s : Stack}
    (hs : (-1 : Int) ∉ s) (hl : s.length = ssRef.length)
    (hflex : ∀ s2, repairFlexural P.c P.attr P.flex P.calcLampamD P.nD2 P.nD3 true P.flexSwitch P.flexZero s = .ok s2 →
      s2.Perm s) {ok : Bool} {sst : Table} {ss : List Stack}
    (h : refFinish P ipoOk indRef reducedSs pdl guide.length s = .ok (ok, sst, ss)) :
    ok = true ∧ ss = convertSstToSs sst ∧ ∃ s2 rr,
      repairFlexural P.c P.attr P.flex P.calcLampamD P.nD2 P.nD3 true P.flexSwitch P.flexZero s = .ok s2 ∧
      checkLayUpRules P.c s2 ipoOk false false false false none = .ok () ∧
      ss[indRef]? = some s2 ∧ sst[indRef]? = some rr ∧ Follows pdl sst guide rowRef rr ∧
      ∀ (i : Nat) (row r : Stack), pdl[i]? = some row → sst[i]? = some r →
        r.length = guide.length ∧ ∀ (j : Nat), row[j]? = some (-1) ↔ r[j]? = some (-1) := by
  unfold refFinish at h
  obtain ⟨sst1, rr1, e1, e1', e1'', F1, d1⟩ := refTable_spec C.last C.guideFull hs C.width C.refRow (by rw [hl, C.count])
  rw [e1] at h
  obtain ⟨_, h0, h⟩ := bind_ok.1 h
  cases h0
  obtain ⟨s2, hs2, h⟩ := bind_ok.1 h
  have hp := hflex s2 hs2
  have hne : pdl ≠ [] := by
    rintro rfl
    have := C.refRow
    simp at this
  -- the laminate of the last panel after the first table
  have hlastrow : pdl[pdl.length - 1]? = some (pdl.getLast hne) := by
    rw [← List.getLast?_eq_getElem?, List.getLast?_eq_some_getLast hne]
  obtain ⟨r1, hr1, hlen1, hcells1⟩ := F1.2 _ _ hlastrow
  have hwr := C.width rowRef (List.mem_of_getElem? C.refRow)
  have hdr1 := follows_drops C.guideFull C.width hwr d1 F1 hlastrow hr1
  have hno1 : ∀ (j : Nat), r1[j]? ≠ some (-1) := by
    intro j hj
    have := (hdr1.2 j).2 hj
    exact C.lastFull _ (List.getLast?_eq_some_getLast hne) (List.mem_of_getElem? this)
  have hguide1 : (convertSstToSs sst1).getLast? = some r1 := by
    unfold convertSstToSs
    rw [List.getLast?_eq_getElem?, List.length_map, F1.1, List.getElem?_map, hr1]
    simp only [Option.map_some]
    rw [row_of_no_drop hno1]
  obtain ⟨sst2, rr2, e2, e2', e2'', F2, d2⟩ := refTable_spec (s := s2) (pdl := pdl) (indRef := indRef) (rowRef := rowRef)
    hguide1 (by
      intro hm
      obtain ⟨j, hj, e⟩ := List.getElem_of_mem hm
      exact hno1 j (by rw [List.getElem?_eq_getElem hj, e]))
    (fun hm => hs (hp.mem_iff.1 hm)) (by rw [hlen1]; exact C.width) C.refRow (by rw [hp.length_eq, hl, C.count])
  rw [hlen1] at e2
  obtain ⟨sst2', h0, h⟩ := bind_ok.1 h
  rw [e2] at h0
  cases h0
  obtain ⟨_, hchk, h⟩ := bind_ok.1 h
  obtain ⟨other, hoth, h⟩ := bind_ok.1 h
  obtain ⟨_, hsame, h⟩ := bind_ok.1 h
  have h3 := Except.ok.inj h
  rw [Prod.mk.injEq, Prod.mk.injEq] at h3
  obtain ⟨rfl, rfl, rfl⟩ := h3
  -- the plies of the guide that the reference panel does not have
  have F : Follows pdl sst2 guide rowRef rr2 := by
    refine ⟨F2.1, fun i row hi => ?_⟩
    obtain ⟨r, k1, k2, k3⟩ := F2.2 i row hi
    refine ⟨r, k1, by rw [k2, hlen1], fun j d dRef hd hdr => ?_⟩
    obtain ⟨g1, g2, g3⟩ := k3 j d dRef hd hdr
    refine ⟨g1, g2, fun a b => ?_⟩
    rw [g3 a b]
    have hjl : j < guide.length := by
      have := (List.getElem?_eq_some_iff.1 hdr).1
      omega
    have hwl := C.width (pdl.getLast hne) (List.getLast_mem hne)
    have dl : (pdl.getLast hne)[j]? = some (pdl.getLast hne)[j] := List.getElem?_eq_getElem (by omega)
    refine (hcells1 j _ dRef dl hdr).2.2 ?_ b
    intro hm
    exact C.lastFull _ (List.getLast?_eq_some_getLast hne) (hm ▸ List.getElem_mem _)
  have hd : ∀ (i : Nat) (row r : Stack), pdl[i]? = some row → sst2[i]? = some r →
        r.length = guide.length ∧ ∀ (j : Nat), row[j]? = some (-1) ↔ r[j]? = some (-1) :=
    fun i row r hi hr => follows_drops C.guideFull C.width hwr d2 F hi hr
  refine ⟨rfl, rfl, s2, rr2, hs2, hchk, ?_, e2', F, hd⟩
  unfold convertSstToSs
  rw [List.getElem?_map, e2']
  simp only [Option.map_some]
  rw [e2'']

/-! ### The theorems -/

/-- C60: after an unsuccessful repair the laminates are those given. -/
theorem C60_failure (P : RepairSetup) (ipoOk : Stack → Bool) (indRef : Nat) (reducedSs : List Stack) (pdl : Table)
    (w : Nat) (sst : Table) (ss : List Stack)
    (h : repairReferencePanel P ipoOk indRef reducedSs pdl w = some (.ok (false, sst, ss))) : ss = reducedSs := by
  unfold repairReferencePanel at h
  split at h
  · cases h
  · split at h
    · cases h
    · cases h
    · rename_i s _ outward _ _
      split_ifs at h
      · exfalso
        have h := Option.some.inj h
        unfold refFinish at h
        obtain ⟨_, _, h⟩ := bind_ok.1 h
        obtain ⟨_, _, h⟩ := bind_ok.1 h
        obtain ⟨_, _, h⟩ := bind_ok.1 h
        obtain ⟨_, _, h⟩ := bind_ok.1 h
        obtain ⟨_, _, h⟩ := bind_ok.1 h
        obtain ⟨_, _, h⟩ := bind_ok.1 h
        cases h
      · have h := Option.some.inj h
        unfold refFail at h
        obtain ⟨_, _, h⟩ := bind_ok.1 h
        cases h
        rfl

theorem referencePanel_ok {a : ConsArgs} {P : RepairSetup} {cs : Int → Nat → ℚ} {ipoOk : Stack → Bool} {indRef : Nat}
    {reducedSs : List Stack} {pdl : Table} {guide ssRef rowRef : Stack}
    (C : StripCase pdl reducedSs guide indRef ssRef rowRef) (H : RepairCase a P cs ssRef)
    (hm1 : (-1 : Int) ∉ P.c.angles) {sst : Table} {ss : List Stack}
    (h : repairReferencePanel P ipoOk indRef reducedSs pdl guide.length = some (.ok (true, sst, ss))) :
    ss = convertSstToSs sst ∧ ∃ s q s' ref rr,
      Source P cs ssRef s q ∧ s'.Perm (Spec.plyContent P.c.sym s q) ∧ s'.length = ssRef.length ∧
      ref.Perm s' ∧ (P.c.sym = true → Spec.Symmetric ref) ∧
      checkLayUpRules P.c ref ipoOk false false false false none = .ok () ∧
      ss[indRef]? = some ref ∧ sst[indRef]? = some rr ∧ Follows pdl sst guide rowRef rr ∧
      ∀ (i : Nat) (row r : Stack), pdl[i]? = some row → sst[i]? = some r →
        r.length = guide.length ∧ ∀ (j : Nat), row[j]? = some (-1) ↔ r[j]? = some (-1) := by
  unfold repairReferencePanel at h
  rw [C.ref] at h
  dsimp only at h
  split at h
  · cases h
  · cases h
  · rename_i s' inward outward ind hst
    split_ifs at h
    · have h := Option.some.inj h
      obtain ⟨s, q, S, hrep⟩ := repairSteps_spec H hst
      obtain ⟨r1, r2, r3, _, _, _⟩ := reorders_content H.contig S.ok S.symm hrep
      have hs : (-1 : Int) ∉ s' := by
        intro hm
        exact hm1 (S.content _ (r3.mem_iff.1 hm))
      obtain ⟨_, h2, s2, rr, k1, k2, k3, k4, k5, k6⟩ := refFinish_spec C hs (by rw [r1, S.len]) (fun s2 h2 =>
        (C56_flexural_reorders H.contig H.nD2 H.flexBound r2 h2).1) h
      obtain ⟨f1, f2⟩ := C56_flexural_reorders H.contig H.nD2 H.flexBound r2 k1
      exact ⟨h2, s, q, s', s2, rr, S, r3, by rw [r1, S.len], f1, f2, k2, k3, k4, k5, k6⟩
    · exfalso
      have h := Option.some.inj h
      unfold refFail at h
      obtain ⟨_, _, h⟩ := bind_ok.1 h
      cases h

/-- C60: after a successful repair of the reference panel the laminates of the strip are the rows of the table
returned, which has exactly the drops of the layout (in particular every panel keeps its number of plies); the plies that a
panel shares with the reference panel are those of the repaired reference laminate, and the others are those of the
guide laminate given. -/
theorem C60_panels_follow (a : ConsArgs) (P : RepairSetup) (cs : Int → Nat → ℚ) (ipoOk : Stack → Bool) (indRef : Nat)
    (reducedSs : List Stack) (pdl : Table) (guide ssRef rowRef : Stack)
    (C : StripCase pdl reducedSs guide indRef ssRef rowRef) (H : RepairCase a P cs ssRef)
    (hm1 : (-1 : Int) ∉ P.c.angles) (sst : Table) (ss : List Stack)
    (h : repairReferencePanel P ipoOk indRef reducedSs pdl guide.length = some (.ok (true, sst, ss))) :
    ss = sst.map (fun r => r.filter (fun x => x != -1)) ∧ sst.length = pdl.length ∧
    ∃ ref rr, ss[indRef]? = some ref ∧ sst[indRef]? = some rr ∧ rr.filter (fun x => x != -1) = ref ∧
      ∀ (i : Nat) (row : Stack), pdl[i]? = some row → ∃ r, sst[i]? = some r ∧ r.length = row.length ∧
        ∀ (j : Nat) (d dRef : Int), row[j]? = some d → rowRef[j]? = some dRef →
          (d = -1 ↔ r[j]? = some (-1)) ∧ (d ≠ -1 → dRef ≠ -1 → r[j]? = rr[j]?) ∧
          (d ≠ -1 → dRef = -1 → r[j]? = guide[j]?) := by
  obtain ⟨h1, s, q, s', ref, rr, S, k1, k2, k3, k4, k5, k6, k7, k8, k9⟩ := referencePanel_ok C H hm1 h
  have e : ss = sst.map (fun r => r.filter (fun x => x != -1)) := by
    rw [h1]
    unfold convertSstToSs
    apply List.map_congr_left
    intro r _
    exact sstRowToSs_eq r
  refine ⟨e, k8.1, ref, rr, k6, k7, ?_, fun i row hi => ?_⟩
  · rw [e, List.getElem?_map, k7] at k6
    simpa using k6
  · obtain ⟨r, g1, g2, g3⟩ := k8.2 i row hi
    have hw := C.width row (List.mem_of_getElem? hi)
    refine ⟨r, g1, by rw [g2, hw], fun j d dRef hd hdr => ?_⟩
    obtain ⟨g4, g5, g6⟩ := g3 j d dRef hd hdr
    refine ⟨⟨g4, fun hr => ?_⟩, g5, g6⟩
    have := ((k9 i row r hi g1).2 j).2 hr
    rw [hd, Option.some.injEq] at this
    exact this

theorem firstBroken_none : ∀ (L : List (Prop × String)), Spec.firstBroken L = none → ∀ x ∈ L, x.1 := by
  intro L
  induction L with
  | nil => intro _ x hx; cases hx
  | cons y L ih =>
    intro h x hx
    unfold Spec.firstBroken at h
    split_ifs at h with hy
    rcases List.mem_cons.1 hx with e | e
    · rw [e]; exact hy
    · exact ih h x e

/-- C60: after a successful repair the laminate of the reference panel has its number of plies and allowed plies only,
is symmetric if required, and meets all the lay-up rules that are switched on (the disorientation rule only
without damage tolerance rule 1: the final check does not test it otherwise). -/
theorem C60_reference_rules (a : ConsArgs) (P : RepairSetup) (cs : Int → Nat → ℚ) (ipoOk : Stack → Bool) (indRef : Nat)
    (reducedSs : List Stack) (pdl : Table) (guide ssRef rowRef : Stack)
    (C : StripCase pdl reducedSs guide indRef ssRef rowRef) (H : RepairCase a P cs ssRef)
    (hm1 : (-1 : Int) ∉ P.c.angles) (sst : Table) (ss : List Stack)
    (h : repairReferencePanel P ipoOk indRef reducedSs pdl guide.length = some (.ok (true, sst, ss))) :
    ∃ ref, ss[indRef]? = some ref ∧ ref.length = ssRef.length ∧ (∀ x ∈ ref, x ∈ P.c.angles) ∧
      (P.c.sym = true → Spec.Symmetric ref) ∧
      (P.c.damTol = true → (P.c.damTolAttr = .rule 1 ∧ Spec.DamTol1 ref) ∨
        (P.c.damTolAttr = .rule 2 ∧ Spec.DamTol2 ref) ∨ (P.c.damTolAttr = .rule 3 ∧ Spec.DamTol3 ref)) ∧
      (P.c.bal = true → Spec.Balanced ref) ∧
      (P.c.diso = true → ¬ (P.c.damTol = true ∧ P.c.damTolAttr = .rule 1) →
        Spec.PairsWithin P.c.deltaAngle ref (if P.c.damTol then 1 else 0)
        (if P.c.damTol then ref.length - 2 else ref.length)) ∧
      (P.c.contig = true → Spec.ContigOK P.c.nContig ref) ∧
      (P.c.rule10 = true → Spec.MeetsShares P.c.shares (1 / 10 ^ 15) (ref.count 0) (ref.count 90)
        (ref.count 45) (ref.count (-45)) ref.length) ∧
      (P.c.rule10 = true → P.c.rule10Abdalla = true → P.dist (Spec.inPlane cs ref.length ref) ≤ 1 / 10 ^ 10) := by
  obtain ⟨h1, s, q, s', ref, rr, S, k1, k2, k3, k4, k5, k6, k7, k8, k9⟩ := referencePanel_ok C H hm1 h
  have hp : ref.Perm (Spec.plyContent P.c.sym s q) := k3.trans k1
  have hl : ref.length = ssRef.length := by rw [k3.length_eq, k2]
  have hang : ∀ x ∈ ref, x ∈ P.c.angles := fun x hx => S.content x (hp.mem_iff.1 hx)
  have hlong := H.long.1
  have hk := nKeptOut_pos P.c P.attr
  have hchk := C11_check_lay_up_rules a P.c H.cons (fun hc => ⟨(H.contig hc).1, (H.contig hc).2.1⟩) ref (by omega)
    hang ipoOk false false none
  rw [k5] at hchk
  generalize hL : [(∀ n, (none : Option Nat) = some n → ref.length = n, "Wrong number of plies"), _, _, _, _, _, _] = L at hchk
  cases hfb : Spec.firstBroken L with
  | some m => rw [hfb] at hchk; cases hchk
  | none =>
    have hall := firstBroken_none L hfb
    rw [← hL] at hall
    simp only [List.mem_cons, List.not_mem_nil, or_false, forall_eq_or_imp, forall_eq] at hall
    obtain ⟨_, b2, b3, _, b5, b6, b7⟩ := hall
    refine ⟨ref, k6, hl, hang, k4, b2, fun hb => b3 hb trivial, b5, b6, b7, ?_⟩
    intro h10 hab
    have := S.abd (by rw [h10, hab]; rfl)
    rw [hl]
    have e : Spec.inPlane cs ssRef.length ref = Spec.inPlane cs ssRef.length (Spec.plyContent P.c.sym s q) := by
      funext k
      unfold Spec.inPlane
      rw [(hp.map _).sum_eq]
    rw [e]
    exact this

/-- A strip of two panels with 24 and 28 plies. -/
def refGuide : Stack := [0, 0, 45, 0, 0, -45, 0, 45, 90, 0, 45, 0, 0, 0, 0, 0, 0, 45, 0, 90, 45, 0, -45, 0, 0, 45, 0, 0]

/-- The layout of the two panels: the first one drops two plies on each side of the mid-plane. -/
def refLayout : Table :=
  [(List.range 28).map (fun (i : Nat) => if i = 5 ∨ i = 8 ∨ i = 19 ∨ i = 22 then -1 else (i : Int)),
   (List.range 28).map (fun (i : Nat) => (i : Int))]

theorem refStrip : StripCase refLayout [ssStack, refGuide] refGuide 0 ssStack
    ((List.range 28).map (fun (i : Nat) => if i = 5 ∨ i = 8 ∨ i = 19 ∨ i = 22 then -1 else (i : Int))) where
  panels := rfl
  last := rfl
  guideFull := by decide
  width := by decide
  lastFull := by decide
  ref := rfl
  refRow := rfl
  count := by decide

set_option synthInstance.maxHeartbeats 200000 in
set_option synthInstance.maxSize 1000 in
/-- The reference laminate is repaired and the thicker panel keeps two pairs of plies of its own. -/
example : ∃ c, mkConstraints (ssArgs false) = .ok c ∧
    RepairCase (ssArgs false) (ssSetup c true true) trig4 ssStack ∧ (-1 : Int) ∉ c.angles ∧
    repairReferencePanel (ssSetup c true true) (fun _ => true) 0 [ssStack, refGuide] refLayout refGuide.length =
      some (.ok (true,
        [[0, 0, 0, 0, 0, -1, -45, 0, -1, 45, 90, 45, 90, -45, -45, 90, 45, 90, 45, -1, 0, -45, -1, 0, 0, 0, 0, 0],
         [0, 0, 0, 0, 0, -45, -45, 0, 90, 45, 90, 45, 90, -45, -45, 90, 45, 90, 45, 90, 0, -45, -45, 0, 0, 0, 0, 0]],
        [[0, 0, 0, 0, 0, -45, 0, 45, 90, 45, 90, -45, -45, 90, 45, 90, 45, 0, -45, 0, 0, 0, 0, 0],
         [0, 0, 0, 0, 0, -45, -45, 0, 90, 45, 90, 45, 90, -45, -45, 90, 45, 90, 45, 90, 0, -45, -45, 0, 0, 0, 0, 0]])) := by
  obtain ⟨c, hc, ht⟩ := ok_of_test (mkConstraints (ssArgs false)) (fun (c : Cons) => decide (ContigCons c ∧
    c.angles = [-45, 0, 45, 90] ∧
    ((⌈(calcMini10 c ssStack.length).m0⌉ + ⌈(calcMini10 c ssStack.length).m90⌉ +
      max ((calcMini10 c ssStack.length).m45 + (calcMini10 c ssStack.length).m135) (calcMini10 c ssStack.length).m45_135 +
      (if c.sym then 2 else 4) * (if c.damTol = true ∧ c.damTolAttr.twoPlies = true then 2 else 1) : Int) ≤
      Spec.designPlies c.sym ssStack.length) ∧
    repairReferencePanel (ssSetup c true true) (fun _ => true) 0 [ssStack, refGuide] refLayout refGuide.length =
      some (.ok (true,
        [[0, 0, 0, 0, 0, -1, -45, 0, -1, 45, 90, 45, 90, -45, -45, 90, 45, 90, 45, -1, 0, -45, -1, 0, 0, 0, 0, 0],
         [0, 0, 0, 0, 0, -45, -45, 0, 90, 45, 90, 45, 90, -45, -45, 90, 45, 90, 45, 90, 0, -45, -45, 0, 0, 0, 0, 0]],
        [[0, 0, 0, 0, 0, -45, 0, 45, 90, 45, 90, -45, -45, 90, 45, 90, 45, 0, -45, 0, 0, 0, 0, 0],
         [0, 0, 0, 0, 0, -45, -45, 0, 90, 45, 90, 45, 90, -45, -45, 90, 45, 90, 45, 90, 0, -45, -45, 0, 0, 0, 0, 0]])))) (by decide +kernel)
  obtain ⟨t1, t2, t3, t4⟩ := of_decide_eq_true ht
  have hsym : Spec.Symmetric ssStack := by unfold Spec.Symmetric; decide +kernel
  exact ⟨c, hc, ssCase false true true c hc ssStack t1 t2 (by decide) (by decide) hsym t3, by rw [t2]; decide, t4⟩

/-- Constraints that allow the fibre angles -1 and 1. -/
def minusOneArgs : ConsArgs where
  setOfAngles := [0, 45, 90, -45, -1, 1]

/-- C17 (violated): -1 is accepted as a fibre angle although it marks the ply drops: a laminate of allowed plies in a
panel without drops then loses plies when the stacking sequence table is converted back. -/
theorem C17_minus_one_angle_violation : ∃ c, mkConstraints minusOneArgs = .ok c ∧ ∃ guide : Stack,
    (∀ x ∈ guide, x ∈ c.angles) ∧ ∃ (row : Stack) (sst : Table), (-1 : Int) ∉ row ∧ row.length = guide.length ∧
      convertSsToSst [guide] [row] guide.length = .ok sst ∧ convertSstToSs sst ≠ [guide] := by
  obtain ⟨c, hc, ht⟩ := ok_of_test (mkConstraints minusOneArgs) (fun (c : Cons) => decide (
    c.angles = [-45, -1, 0, 1, 45, 90])) (by decide +kernel)
  have ht := of_decide_eq_true ht
  refine ⟨c, hc, [0, -1, 1, 90], ?_, [0, 1, 2, 3], [[0, -1, 1, 90]], by decide, rfl, rfl, by decide⟩
  rw [ht]
  decide

end Bella
