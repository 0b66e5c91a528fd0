import Verif.Proofs.ThinToThick
import Verif.Props.ThickToThin
import Verif.Props.Diso
/-
C36: the thin-to-thick repair.
-/
namespace Bella

/-- A strip whose panels up to the reference panel have been designed: their rows have the plies of their laminates,
each one is obtained from the next thicker one by dropping plies, and they are symmetric if required. -/
structure DesignedStrip (S : StripSetup) (sst : Table) (ss : List Stack) (pdlRef : Stack) : Prop
    extends StripTable S sst ss pdlRef where
  noMinusOne : (-1 : Int) ∉ S.c.angles
  rows : ∀ (p : Nat), p ≤ S.r.indRef → ∃ row : Stack, sst[p]? = some row ∧ row.length = pdlRef.length ∧
    ss[p]? = some (row.filter (fun x => x != -1)) ∧ (S.c.sym = true → Spec.Symmetric row) ∧
    S.r.nPlies[p]? = some (row.filter (fun x => x != -1)).length
  nested : ∀ (p : Nat), p < S.r.indRef → ∀ row up : Stack, sst[p]? = some row → sst[p + 1]? = some up →
    ∀ (j : Nat), row[j]? = up[j]? ∨ row[j]? = some (-1)

/-! ### The cleaned table -/

/-- One row of the cleaned table. -/
def cleanRow (mask row : Stack) : Stack := ((row.zip mask).filter (fun p => p.2 != -1)).map Prod.fst

theorem cleanRow_length : ∀ (mask row : Stack), row.length = mask.length →
    (cleanRow mask row).length = pliesIn mask
  | [], [], _ => rfl
  | m :: mask, r :: row, h => by
    have ih := cleanRow_length mask row (by simpa using h)
    unfold cleanRow pliesIn at ih ⊢
    rw [List.zip_cons_cons, List.filter_cons, List.countP_cons]
    by_cases e : m = -1
    · simp only [e, bne_self_eq_false, Bool.false_eq_true, if_false]
      exact ih
    · have : (m != -1) = true := by simpa using e
      simp only [this, if_true, List.map_cons, List.length_cons]
      omega

theorem cleanRow_nested : ∀ (mask row up : Stack), row.length = mask.length → up.length = mask.length →
    (∀ (j : Nat), row[j]? = up[j]? ∨ row[j]? = some (-1)) →
    ∀ (j : Nat), (cleanRow mask row)[j]? = (cleanRow mask up)[j]? ∨ (cleanRow mask row)[j]? = some (-1)
  | [], [], [], _, _, _ => fun j => Or.inl rfl
  | m :: mask, r :: row, u :: up, h1, h2, h => by
    have ih := cleanRow_nested mask row up (by simpa using h1) (by simpa using h2) (fun j => by simpa using h (j + 1))
    intro j
    unfold cleanRow at ih ⊢
    rw [List.zip_cons_cons, List.filter_cons, List.zip_cons_cons, List.filter_cons]
    by_cases e : m = -1
    · simp only [e, bne_self_eq_false, Bool.false_eq_true, if_false]
      exact ih j
    · have : (m != -1) = true := by simpa using e
      simp only [this, if_true, List.map_cons]
      cases j with
      | zero => simpa using h 0
      | succ j => simpa using ih j

theorem cleanRow_filter : ∀ (mask row : Stack), row.length = mask.length →
    (∀ (j : Nat), row[j]? = mask[j]? ∨ row[j]? = some (-1)) →
    (cleanRow mask row).filter (fun x => x != -1) = row.filter (fun x => x != -1)
  | [], [], _, _ => rfl
  | m :: mask, r :: row, h1, h => by
    have ih := cleanRow_filter mask row (by simpa using h1) (fun j => by simpa using h (j + 1))
    unfold cleanRow at ih ⊢
    rw [List.zip_cons_cons, List.filter_cons]
    by_cases e : m = -1
    · have hr : r = -1 := by
        have := h 0
        simp only [List.getElem?_cons_zero, Option.some.injEq] at this
        omega
      simp only [e, bne_self_eq_false, Bool.false_eq_true, if_false]
      rw [ih, hr, List.filter_cons]
      simp
    · have : (m != -1) = true := by simpa using e
      simp only [this, if_true, List.map_cons]
      rw [List.filter_cons, List.filter_cons, ih]

theorem cleanRow_self (mask : Stack) : cleanRow mask mask = mask.filter (fun x => x != -1) := by
  induction mask with
  | nil => rfl
  | cons m t ih =>
    unfold cleanRow at ih ⊢
    rw [List.zip_cons_cons, List.filter_cons, List.filter_cons]
    by_cases e : m = -1
    · simp only [e, bne_self_eq_false, Bool.false_eq_true, if_false]
      exact ih
    · have : (m != -1) = true := by simpa using e
      simp only [this, if_true, List.map_cons]
      rw [ih]

theorem cleanRow_symm {mask row : Stack} (h1 : Spec.Symmetric mask) (h2 : Spec.Symmetric row)
    (hl : row.length = mask.length) : Spec.Symmetric (cleanRow mask row) := by
  unfold Spec.Symmetric at *
  unfold cleanRow
  rw [← List.map_reverse, ← List.filter_reverse, List.zip, List.reverse_zipWith hl, h1, h2]

theorem cleanTable_get {pdlRef : Stack} {sst : Table} (p : Nat) :
    (cleanTable pdlRef sst)[p]? = (sst[p]?).map (cleanRow pdlRef) := by
  unfold cleanTable
  rw [List.getElem?_map]
  rfl

/-! ### The steps -/

/-- What C47 says about the steps of the strip. -/
theorem thick_steps {S : StripSetup} {sst : Table} {ss : List Stack} {pdlRef : Stack}
    (C : StripTable S sst ss pdlRef) :
      pliesIn pdlRef + perSide S.c.sym * S.r.thick.length = pdlRef.length ∧
      ∀ (i : Nat) (s : Step), S.r.thick[i]? = some s →
        ThickStepOk S.r (perSide S.c.sym) s (pliesIn pdlRef + perSide S.c.sym * i) := by
  obtain ⟨plies, nRef, bs, bw, h, hpar⟩ := C.reduced
  obtain ⟨nref, n1, h1, h2, h3, h4⟩ := C47_thin_to_thick_steps plies _ nRef bs bw _ h hpar _ rfl
  have e : nref = pliesIn pdlRef := by
    rw [C.count, ← pliesIn_eq] at h1
    exact (Option.some.inj h1).symm
  subst e
  have e : n1 = pdlRef.length := by
    rw [C.width] at h2
    exact (Option.some.inj h2).symm
  subst e
  refine ⟨h3, fun i s hs => ?_⟩
  obtain ⟨g1, g2, g0, lo, hi, g3, g4, g5, g6, g7, g8⟩ := h4 i s hs
  change s.nBefore = (pliesIn pdlRef : Int) + (perSide S.c.sym : Nat) * i at g1
  change s.nAfter = s.nBefore + (perSide S.c.sym : Nat) at g2
  have hz : ((pliesIn pdlRef + perSide S.c.sym * i : Nat) : Int) = s.nBefore := by
    rw [g1]
    push_cast
    ring
  refine ⟨⟨lo, hi, g3, g4, ?_, ?_, ?_⟩, by omega⟩
  · omega
  · omega
  · rw [g7, ← hz]
    exact Int.natCast_inj

theorem beam_children_thick {S : StripSetup} {n0 : Nat} {i : Nat} {s : Step} {b : Bool}
    {ns ns' : List (Cand × Marks)} (h : thickStep S n0 i s b ns = .ok ns') :
    ∀ n ∈ ns', ∃ m ∈ ns, (∃ ps p a, addPositions S.c (n0 + perSide S.c.sym * i) = .ok ps ∧ p ∈ ps ∧
      a ∈ addAngles S.c m.1.queue ∧ thickChild S s (n0 + perSide S.c.sym * i) m.1 (p, a) = .ok n.1) ∧
      ∃ mk, thickEval S s m.2 n.1 = .ok (some mk) := by
  unfold thickStep at h
  obtain ⟨ls, hls, h⟩ := bind_ok.1 h
  cases h
  intro n hn
  have hn := mem_globalStage hn
  obtain ⟨m, hm, r, hr, hnr⟩ := mapM_flatten_mem hls hn
  obtain ⟨cs, hcs, hr⟩ := bind_ok.1 hr
  obtain ⟨⟨h1, mk, h2⟩, _⟩ := localStage_mem hr n hnr
  refine ⟨m, hm, ?_, mk, h2⟩
  unfold thickChildren at hcs
  obtain ⟨ps, hps, hcs⟩ := bind_ok.1 hcs
  obtain ⟨hlen, hall⟩ := mapM_get hcs
  obtain ⟨j, hj, e⟩ := List.getElem_of_mem h1
  have hj' : j < (ps.flatMap (fun i => (addAngles S.c m.1.queue).map (fun a => (i, a)))).length := by omega
  have hp := List.getElem_mem hj'
  obtain ⟨y, hy1, hy2⟩ := hall j _ (List.getElem?_eq_getElem hj')
  rw [List.getElem?_eq_getElem hj, e] at hy2
  cases hy2
  obtain ⟨p, hp1, hp2⟩ := List.mem_flatMap.1 hp
  obtain ⟨a, ha1, ha2⟩ := List.mem_map.1 hp2
  rw [← ha2] at hy1
  exact ⟨ps, p, a, hps, hp1, ha1, hy1⟩

theorem thickEval_passed {S : StripSetup} {s : Step} {m mk : Marks} {x : Cand}
    (h : thickEval S s m x = .ok (some mk)) (row : Stack) (hr : x.pdl[s.indPanel]? = some (some row)) :
    PassedAll S (sstRowToSs row) := by
  unfold thickEval at h
  obtain ⟨row', hrow, h⟩ := bind_ok.1 h
  have e := rowAt_ok hrow
  rw [hr] at e
  have e := Option.some.inj (Option.some.inj e)
  subst e
  obtain ⟨ok0, h0, h⟩ := bind_ok.1 h
  obtain ⟨ok1, h1, h⟩ := bind_ok.1 h
  cases ok0
  · cases h
  cases ok1
  · cases h
  simp only [Bool.and_self, if_true] at h
  obtain ⟨_, _, h⟩ := bind_ok.1 h
  obtain ⟨_, _, h⟩ := bind_ok.1 h
  obtain ⟨_, _, h⟩ := bind_ok.1 h
  obtain ⟨ok2, h2, h⟩ := bind_ok.1 h
  cases ok2
  · cases h
  refine ⟨h0, h1, fun h10 hab => ?_⟩
  unfold tenOk at h2
  rw [h10, hab] at h2
  simp only [if_true] at h2
  have := Except.ok.inj h2
  simpa using this

/-- The rows up to the reference row. -/
theorem designed_below {S : StripSetup} {sst : Table} {ss : List Stack} {pdlRef : Stack}
    (D : DesignedStrip S sst ss pdlRef) : ∀ (k p : Nat), p + k = S.r.indRef → ∀ row : Stack, sst[p]? = some row →
      ∀ (j : Nat), row[j]? = pdlRef[j]? ∨ row[j]? = some (-1)
  | 0, p, h, row, hr, j => by
    have : p = S.r.indRef := by omega
    subst this
    rw [D.ref] at hr
    cases hr
    exact Or.inl rfl
  | k + 1, p, h, row, hr, j => by
    obtain ⟨up, hup, _⟩ := D.rows (p + 1) (by omega)
    rcases D.nested p (by omega) row up hr hup j with e | e
    · rw [e]
      exact designed_below D k (p + 1) (by omega) up hup j
    · exact Or.inr e

/-- The first node. -/
theorem thickInit_inv {S : StripSetup} {sst : Table} {ss : List Stack} {pdlRef : Stack}
    (D : DesignedStrip S sst ss pdlRef) (lampams : List (List ℚ)) (cnt : List ℚ) :
    ThickInv S (cleanTable pdlRef sst) S.r.indRef (pliesIn pdlRef)
      (thickInit S (cleanTable pdlRef sst) lampams cnt).1 := by
  have C := D.toStripTable
  have href : S.r.indRef < S.r.nPlies.length := (List.getElem?_eq_some_iff.1 C.count).1
  have hcount : S.r.nPlies[S.r.indRef]? = some (pliesIn pdlRef) := by rw [pliesIn_eq]; exact C.count
  have hget : ∀ (p : Nat), p ≤ S.r.indRef → ∀ row : Stack, sst[p]? = some row →
      (thickInit S (cleanTable pdlRef sst) lampams cnt).1.pdl[p]? = some (some (cleanRow pdlRef row)) := by
    intro p hp row hr
    unfold thickInit
    have hl := C.nSst
    rw [List.getElem?_append_left (by simp [cleanTable]; omega), List.getElem?_map, List.getElem?_take,
      if_pos (by omega), cleanTable_get, hr]
    rfl
  have hget' : ∀ (p : Nat), p ≤ S.r.indRef → ∀ r : Stack,
      (thickInit S (cleanTable pdlRef sst) lampams cnt).1.pdl[p]? = some (some r) →
      ∃ row, sst[p]? = some row ∧ r = cleanRow pdlRef row ∧ row.length = pdlRef.length := by
    intro p hp r hr
    obtain ⟨row, h1, h2, _⟩ := D.rows p hp
    rw [hget p hp row h1] at hr
    exact ⟨row, h1, (Option.some.inj (Option.some.inj hr)).symm, h2⟩
  exact {
    len := by
      have hl := C.nSst
      simp [thickInit, cleanTable]
      omega
    cpGe := le_rfl
    hi := ⟨_, hcount, le_rfl⟩
    lo := fun h => by omega
    atRef := fun _ => hcount
    rows := fun p hp => by
      obtain ⟨row, h1, h2, h3, h4, _⟩ := D.rows p hp
      refine ⟨_, _, hget p hp row h1, ?_, cleanRow_length _ _ h2, (cleanRow_length _ _ h2).le, fun hs => ?_,
        fun _ _ _ => ⟨rfl, rfl⟩, fun _ => rfl, fun h => by omega⟩
      · rw [Nat.min_eq_left hp, cleanTable_get, h1]
        rfl
      · exact cleanRow_symm (C.symm hs) (h4 hs) h2
    nested := fun p hp r u hr hu' j => by
      obtain ⟨row, h1, rfl, h2⟩ := hget' p hp.le r hr
      obtain ⟨up, g1, rfl, g2⟩ := hget' (p + 1) hp u hu'
      exact cleanRow_nested _ _ _ h2 g2 (D.nested p hp row up h1 g1) j
    done := fun p h1 h2 => by omega
    cur := fun r hr => by
      obtain ⟨row, h1, rfl, h2⟩ := hget' _ le_rfl r hr
      rw [C.ref] at h1
      cases h1
      rw [cleanRow_self, List.mem_filter]
      simp
    passed := fun p h1 h2 => by omega
    bal := fun _ ref hb p h1 h2 r hr => by
      have : p = S.r.indRef := by omega
      subst this
      obtain ⟨row, g1, rfl, g2⟩ := hget' _ le_rfl r hr
      rw [cleanTable_get, g1] at hb
      cases hb
      rw [C.ref] at g1
      cases g1
      refine ⟨[], fun _ => rfl, by simp, fun a _ _ _ _ _ => ?_⟩
      rw [cleanRow_self, List.filter_filter]
      simp }

theorem thick_nodes {S : StripSetup} {sst : Table} {ss : List Stack} {pdlRef : Stack}
    (D : DesignedStrip S sst ss pdlRef) {lampams : List (List ℚ)} {cnt : List ℚ} {nodes : List (Cand × Marks)}
    (h : beamLoop (thickStep S (pliesIn pdlRef)) 0 S.r.thick
      [thickInit S (cleanTable pdlRef sst) lampams cnt] = .ok nodes) :
    ∀ n ∈ nodes, ThickInv S (cleanTable pdlRef sst) (S.r.nPlies.length - 1) pdlRef.length n.1 := by
  have C := D.toStripTable
  obtain ⟨hlen, hsteps⟩ := thick_steps C
  have hu := strip_sorted C
  have href : S.r.indRef < S.r.nPlies.length := (List.getElem?_eq_some_iff.1 C.count).1
  have key := beamLoop_inv (step := thickStep S (pliesIn pdlRef))
    (I := fun i n => ∃ cp, ThickInv S (cleanTable pdlRef sst) cp (pliesIn pdlRef + perSide S.c.sym * i) n.1)
    S.r.thick 0 _ nodes (by
      intro j s b ns ns' hj hI hst n hn
      rw [Nat.zero_add] at *
      obtain ⟨m, hm, ⟨ps, p, a, hps, hp, ha, hch⟩, mk, hev⟩ := beam_children_thick hst n hn
      obtain ⟨cp, hcp⟩ := hI m hm
      refine ⟨s.indPanel, ?_⟩
      have := thickInv_step hcp hu (hsteps j s hj) D.noMinusOne hps hp ha hch
        (fun row hr => thickEval_passed hev row hr) sstRowToSs_eq
      rw [Nat.mul_succ, ← Nat.add_assoc]
      exact this) (by
      intro n hn
      rw [List.mem_singleton] at hn
      subst hn
      refine ⟨S.r.indRef, ?_⟩
      rw [Nat.mul_zero, Nat.add_zero]
      exact thickInit_inv D lampams cnt) h
  intro n hn
  obtain ⟨cp, hcp⟩ := key n hn
  rw [Nat.zero_add, hlen] at hcp
  obtain ⟨hi, h1, h2⟩ := hcp.hi
  have hlt : cp < S.r.nPlies.length := (List.getElem?_eq_some_iff.1 h1).1
  have : cp = S.r.nPlies.length - 1 := by
    by_contra hne
    have := (sorted_get hu h1 C.width).1 (by omega)
    omega
  subst this
  exact hcp

/-- Without thicker panels the reference panel is the last one. -/
theorem thick_empty {S : StripSetup} {sst : Table} {ss : List Stack} {pdlRef : Stack}
    (C : StripTable S sst ss pdlRef) (h : S.r.thick.isEmpty = true) :
    S.r.indRef + 1 = S.r.nPlies.length ∧ pliesIn pdlRef = pdlRef.length := by
  obtain ⟨hlen, _⟩ := thick_steps C
  rw [List.isEmpty_iff] at h
  rw [h, List.length_nil, Nat.mul_zero, Nat.add_zero] at hlen
  have hc := C.count
  rw [← pliesIn_eq] at hc
  have hlt : S.r.indRef < S.r.nPlies.length := (List.getElem?_eq_some_iff.1 hc).1
  refine ⟨?_, hlen⟩
  by_contra hne
  have := (sorted_get (strip_sorted C) hc C.width).1 (by omega)
  omega

/-- The result of a successful repair: the rows of a node that satisfies the invariant, or the cleaned table. -/
theorem thick_result {S : StripSetup} {sst : Table} {ss : List Stack} {pdlRef : Stack} {lampams : List (List ℚ)}
    (D : DesignedStrip S sst ss pdlRef) {sst' : Table} {lps : List (List ℚ)} {ss' : List Stack}
    (h : repairThinToThick S lampams sst ss = .ok (true, sst', lps, ss')) :
    (S.r.indRef + 1 = S.r.nPlies.length ∧ pliesIn pdlRef = pdlRef.length ∧ sst' = cleanTable pdlRef sst ∧ ss' = ss) ∨
    ∃ x, ThickInv S (cleanTable pdlRef sst) (S.r.nPlies.length - 1) pdlRef.length x ∧
      sst'.length = S.r.nPlies.length ∧ ss' = convertSstToSs sst' ∧
      ∀ (p : Nat) (r : Stack), sst'[p]? = some r → x.pdl[p]? = some (some r) := by
  have C := D.toStripTable
  unfold repairThinToThick at h
  obtain ⟨ssRef, _, h⟩ := bind_ok.1 h
  obtain ⟨nMax, hmax, h⟩ := bind_ok.1 h
  obtain ⟨nRef, hnref, h⟩ := bind_ok.1 h
  rw [pyGet_eq_ok, C.count, ← pliesIn_eq] at hnref
  cases hnref
  obtain ⟨pr, hpr, h⟩ := bind_ok.1 h
  rw [pyGet_eq_ok, C.ref] at hpr
  cases hpr
  cases hthick : S.r.thick.isEmpty
  · right
    rw [hthick] at h
    simp only [Bool.false_eq_true, if_false] at h
    obtain ⟨cnt, _, h⟩ := bind_ok.1 h
    obtain ⟨nodes, hn, h⟩ := bind_ok.1 h
    have hall := thick_nodes D hn
    unfold thickSelect at h
    split at h
    · cases h
    · rename_i best hbest
      have I := hall best (List.mem_of_getElem? hbest)
      unfold thickFinish at h
      obtain ⟨sst1, h1, h⟩ := bind_ok.1 h
      obtain ⟨lps1, h2, h⟩ := bind_ok.1 h
      obtain ⟨_, _, h⟩ := bind_ok.1 h
      obtain ⟨_, _, h⟩ := bind_ok.1 h
      obtain ⟨_, _, h⟩ := bind_ok.1 h
      obtain ⟨_, _, h⟩ := bind_ok.1 h
      cases h
      obtain ⟨g1, g2⟩ := mapM_get h1
      rw [List.length_range] at g1
      refine ⟨best.1, I, by rw [g1, I.len], rfl, fun p r hr => ?_⟩
      have hp : p < best.1.pdl.length := by rw [← g1]; exact (List.getElem?_eq_some_iff.1 hr).1
      obtain ⟨y, hy1, hy2⟩ := g2 p p (List.getElem?_range hp)
      rw [hr] at hy2
      cases hy2
      exact rowAt_ok hy1
  · left
    rw [hthick] at h
    simp only [if_true] at h
    cases h
    obtain ⟨h1, h2⟩ := thick_empty C hthick
    exact ⟨h1, h2, rfl, rfl⟩

/-- A row obtained by dropping plies holds a part of the plies, in order. -/
theorem nested_sublist : ∀ (row up : Stack), row.length = up.length →
    (∀ (j : Nat), row[j]? = up[j]? ∨ row[j]? = some (-1)) →
    (row.filter (fun x => x != -1)).Sublist (up.filter (fun x => x != -1))
  | [], [], _, _ => List.Sublist.slnil
  | r :: row, u :: up, hl, h => by
    have ih := nested_sublist row up (by simpa using hl) (fun j => by simpa using h (j + 1))
    rcases h 0 with e | e
    · simp only [List.getElem?_cons_zero, Option.some.injEq] at e
      subst e
      rw [List.filter_cons, List.filter_cons]
      split_ifs
      · exact ih.cons_cons _
      · exact ih
    · simp only [List.getElem?_cons_zero, Option.some.injEq] at e
      subst e
      rw [List.filter_cons, List.filter_cons]
      simp only [bne_self_eq_false, Bool.false_eq_true, if_false]
      split_ifs
      · exact ih.cons _
      · exact ih

theorem clean_all {S : StripSetup} {sst : Table} {ss : List Stack} {pdlRef : Stack}
    (D : DesignedStrip S sst ss pdlRef) {p : Nat} (hp : p ≤ S.r.indRef) :
    ∃ row, sst[p]? = some row ∧ (cleanTable pdlRef sst)[p]? = some (cleanRow pdlRef row) ∧
      row.length = pdlRef.length ∧
      (cleanRow pdlRef row).filter (fun x => x != -1) = row.filter (fun x => x != -1) := by
  obtain ⟨row, h1, h2, _⟩ := D.rows p hp
  refine ⟨row, h1, by rw [cleanTable_get, h1]; rfl, h2, ?_⟩
  exact cleanRow_filter _ _ h2 (designed_below D (S.r.indRef - p) p (by omega) row h1)

/-- C36: after a successful thin-to-thick repair every panel has its number of plies, the laminates of the reference panel
and of the thinner panels are unchanged, and each panel is obtained from the next thicker one by dropping plies: its
laminate is a sub-laminate of that of the thicker panel. -/
theorem C36_nested_panels (S : StripSetup) (lampams : List (List ℚ)) (sst : Table) (ss : List Stack) (pdlRef : Stack)
    (D : DesignedStrip S sst ss pdlRef) (sst' : Table) (lps : List (List ℚ)) (ss' : List Stack)
    (h : repairThinToThick S lampams sst ss = .ok (true, sst', lps, ss')) :
    sst'.length = S.r.nPlies.length ∧ ss'.length = S.r.nPlies.length ∧
    (∀ (p : Nat), p ≤ S.r.indRef → ss'[p]? = ss[p]?) ∧
    (∀ (p : Nat), p < S.r.nPlies.length → ∃ row : Stack, sst'[p]? = some row ∧ row.length = pdlRef.length ∧
      ss'[p]? = some (row.filter (fun x => x != -1)) ∧
      S.r.nPlies[p]? = some (row.filter (fun x => x != -1)).length ∧ (S.c.sym = true → Spec.Symmetric row)) ∧
    ∀ (p : Nat), p + 1 < S.r.nPlies.length → ∃ row up s t : Stack, sst'[p]? = some row ∧ sst'[p + 1]? = some up ∧
      (∀ (j : Nat), row[j]? = up[j]? ∨ row[j]? = some (-1)) ∧ ss'[p]? = some s ∧ ss'[p + 1]? = some t ∧ s.Sublist t := by
  have C := D.toStripTable
  rcases thick_result D h with ⟨h1, h2, rfl, rfl⟩ | ⟨x, I, h1, rfl, h2⟩
  · -- no thicker panel
    have hl : (cleanTable pdlRef sst).length = S.r.nPlies.length := by
      unfold cleanTable
      rw [List.length_map, C.nSst]
    refine ⟨hl, C.nSs, fun _ _ => rfl, fun p hp => ?_, fun p hp => ?_⟩
    · obtain ⟨row, g1, g2, g3, g4⟩ := clean_all D (p := p) (by omega)
      obtain ⟨row', e1, e2, e3, e4, e5⟩ := D.rows p (by omega)
      rw [g1] at e1
      cases e1
      refine ⟨_, g2, by rw [cleanRow_length _ _ g3, h2], by rw [g4]; exact e3, by rw [g4]; exact e5, fun hs => ?_⟩
      exact cleanRow_symm (C.symm hs) (e4 hs) g3
    · obtain ⟨row, g1, g2, g3, g4⟩ := clean_all D (p := p) (by omega)
      obtain ⟨up, k1, k2, k3, k4⟩ := clean_all D (p := p + 1) (by omega)
      obtain ⟨_, e1, _, e3, _⟩ := D.rows p (by omega)
      obtain ⟨_, f1, _, f3, _⟩ := D.rows (p + 1) (by omega)
      rw [g1] at e1
      cases e1
      rw [k1] at f1
      cases f1
      have hn := D.nested p (by omega) row up g1 k1
      exact ⟨_, _, _, _, g2, k2, cleanRow_nested _ _ _ g3 k3 hn, e3, f3, nested_sublist _ _ (by omega) hn⟩
  · have hrow : ∀ (p : Nat), p < S.r.nPlies.length → ∃ row, sst'[p]? = some row ∧ x.pdl[p]? = some (some row) ∧
        (convertSstToSs sst')[p]? = some (row.filter (fun x => x != -1)) := by
      intro p hp
      have hp' : p < sst'.length := by omega
      refine ⟨sst'[p], List.getElem?_eq_getElem hp', h2 p _ (List.getElem?_eq_getElem hp'), ?_⟩
      unfold convertSstToSs
      rw [List.getElem?_map, List.getElem?_eq_getElem hp']
      simp only [Option.map_some, sstRowToSs_eq]
    have href : S.r.indRef < S.r.nPlies.length := (List.getElem?_eq_some_iff.1 C.count).1
    refine ⟨h1, by unfold convertSstToSs; rw [List.length_map, h1], fun p hp => ?_, fun p hp => ?_, fun p hp => ?_⟩
    · obtain ⟨row, g1, g2, g3⟩ := hrow p (by omega)
      obtain ⟨row0, f1, f2, f3, f4⟩ := clean_all D hp
      obtain ⟨_, e1, _, e3, _⟩ := D.rows p hp
      rw [f1] at e1
      cases e1
      obtain ⟨row1, b, w1, w2, w3, w4, w5, w6, w7, w8⟩ := I.rows p (by omega)
      rw [g2] at w1
      cases w1
      rw [Nat.min_eq_left hp, f2] at w2
      cases w2
      rw [g3, e3, w7 hp, f4]
    · obtain ⟨row, g1, g2, g3⟩ := hrow p hp
      obtain ⟨row1, b, w1, w2, w3, w4, w5, w6, w7, w8⟩ := I.rows p (by omega)
      rw [g2] at w1
      cases w1
      refine ⟨row, g1, w3, g3, ?_, w5⟩
      by_cases hpr : p ≤ S.r.indRef
      · obtain ⟨row0, f1, f2, f3, f4⟩ := clean_all D hpr
        obtain ⟨_, e1, _, _, _, e5⟩ := D.rows p hpr
        rw [f1] at e1
        cases e1
        rw [Nat.min_eq_left hpr, f2] at w2
        cases w2
        rw [w7 hpr, f4]
        exact e5
      · by_cases hlast : p = S.r.nPlies.length - 1
        · subst hlast
          have hno := I.cur row g2
          rw [List.filter_eq_self.2 (fun y hy => by
            have : y ≠ -1 := fun e => hno (e ▸ hy)
            simpa using this), w3]
          exact C.width
        · exact I.done p (by omega) (by omega) row g2
    · obtain ⟨row, g1, g2, g3⟩ := hrow p (by omega)
      obtain ⟨up, k1, k2, k3⟩ := hrow (p + 1) hp
      obtain ⟨_, _, w1, _, w3, _⟩ := I.rows p (by omega)
      obtain ⟨_, _, v1, _, v3, _⟩ := I.rows (p + 1) (by omega)
      rw [g2] at w1
      cases w1
      rw [k2] at v1
      cases v1
      have hn := I.nested p (by omega) row up g2 k2
      exact ⟨row, up, _, _, g1, k1, hn, g3, k3, nested_sublist _ _ (by omega) hn⟩

theorem take_faces {k : Nat} {row b : Stack} (hk : k ≤ b.length) (hb : b.length ≤ row.length)
    (h : ∀ (j : Nat), j < k → row[j]? = b[j]?) (hno : (-1 : Int) ∉ b) :
    (row.filter (fun x => x != -1)).take k = b.take k := by
  have e : row.take k = b.take k := by
    apply List.ext_getElem?
    intro j
    rw [List.getElem?_take, List.getElem?_take]
    by_cases hj : j < k
    · rw [if_pos hj, if_pos hj, h j hj]
    · rw [if_neg hj, if_neg hj]
  conv_lhs => rw [← List.take_append_drop k row]
  rw [List.filter_append, e]
  have : (b.take k).filter (fun x => x != -1) = b.take k := by
    rw [List.filter_eq_self]
    intro y hy
    have : y ≠ -1 := fun e => hno (e ▸ List.mem_of_mem_take hy)
    simpa using this
  rw [this, List.take_append_of_le_length (by simp; omega), List.take_take, Nat.min_self]

/-- C36: each thicker panel keeps the covering plies of the reference panel on both faces, is symmetric if required, and
meets the contiguity rule, the disorientation rule and the 10% rule in its lamination parameter variant. -/
theorem C36_rules (a : ConsArgs) (S : StripSetup) (lampams : List (List ℚ)) (sst : Table) (ss : List Stack)
    (pdlRef : Stack) (hcons : mkConstraints a = .ok S.c) (D : DesignedStrip S sst ss pdlRef)
    (hang : ∀ x ∈ pdlRef, x ≠ -1 → x ∈ S.c.angles) (sst' : Table) (lps : List (List ℚ)) (ss' : List Stack)
    (h : repairThinToThick S lampams sst ss = .ok (true, sst', lps, ss'))
    (p : Nat) (hp : S.r.indRef < p) (hpn : p < S.r.nPlies.length) :
    ∃ s ref : Stack, ss'[p]? = some s ∧ ss[S.r.indRef]? = some ref ∧ (∀ x ∈ s, x ∈ S.c.angles) ∧
      (S.c.covering = true → S.c.nCovering ≤ ref.length →
        s.take S.c.nCovering = ref.take S.c.nCovering ∧
        s.reverse.take S.c.nCovering = ref.reverse.take S.c.nCovering) ∧
      (S.c.sym = true → Spec.Symmetric s) ∧
      (S.c.contig = true → 2 ≤ S.c.nContig → S.c.nContig ≤ 6 → Spec.ContigOK S.c.nContig
        (if S.c.damTol = true ∧ S.c.damTolAttr.twoPlies = true then (s.drop 1).dropLast else s)) ∧
      (S.c.diso = true → Spec.DisoOK S.c.deltaAngle
        (if S.c.damTol = true ∧ S.c.damTolAttr.twoPlies = true then (s.drop 1).dropLast else s)) ∧
      (S.c.rule10 = true → S.c.rule10Abdalla = true → S.dist (S.lampam s) = 0) := by
  have C := D.toStripTable
  obtain ⟨_, _, _, hrows, _⟩ := C36_nested_panels S lampams sst ss pdlRef D sst' lps ss' h
  obtain ⟨row, hr, hlen, hs, _, hsym⟩ := hrows p hpn
  rcases thick_result D h with ⟨h1, _⟩ | ⟨x, I, h1, _, h2⟩
  · omega
  have hx := h2 p row hr
  obtain ⟨row1, b, w1, w2, w3, w4, w5, w6, w7, w8⟩ := I.rows p (by omega)
  rw [hx] at w1
  have e := Option.some.inj (Option.some.inj w1)
  subst e
  rw [Nat.min_eq_right (by omega), cleanTable_get, C.ref] at w2
  have e : cleanRow pdlRef pdlRef = b := Option.some.inj w2
  rw [cleanRow_self] at e
  subst e
  obtain ⟨row0, e1, _, e3, _⟩ := D.rows S.r.indRef le_rfl
  rw [C.ref] at e1
  have e := Option.some.inj e1
  subst e
  have hin : ∀ y ∈ row.filter (fun x => x != -1), y ∈ S.c.angles := by
    intro y hy
    obtain ⟨y1, y2⟩ := List.mem_filter.1 hy
    rcases w8 hp y y1 with e | e | e
    · rw [e] at y2
      simp at y2
    · exact e
    · obtain ⟨z1, z2⟩ := List.mem_filter.1 e
      exact hang y z1 (by simpa using z2)
  have hno : (-1 : Int) ∉ pdlRef.filter (fun x => x != -1) := by
    rw [List.mem_filter]
    simp
  obtain ⟨p1, p2, p3⟩ := I.passed p hp (by omega) row hx
  refine ⟨_, _, hs, e3, hin, fun hc hk => ?_, fun hsy => ?_, fun hc h2 h6 => ?_, fun hd => ?_, p3⟩
  · have hf : ∀ (j : Nat), j < S.c.nCovering → row[j]? = (pdlRef.filter (fun x => x != -1))[j]? ∧
        row[row.length - 1 - j]? = (pdlRef.filter (fun x => x != -1))[(pdlRef.filter (fun x => x != -1)).length - 1 - j]? := by
      intro j hj
      apply w6 j ?_ (by omega)
      unfold nCov
      rw [if_pos hc]
      exact hj
    refine ⟨take_faces hk (by omega) (fun j hj => (hf j hj).1) hno, ?_⟩
    rw [← List.filter_reverse]
    refine take_faces (by rw [List.length_reverse]; exact hk) (by rw [List.length_reverse, List.length_reverse]; omega)
      (fun j hj => ?_) (by rw [List.mem_reverse]; exact hno)
    rw [List.getElem?_reverse (by omega), List.getElem?_reverse (by omega)]
    exact (hf j hj).2
  · have := hsym hsy
    unfold Spec.Symmetric at this ⊢
    rw [← List.filter_reverse, this]
  · have hk := p2
    unfold contigOk at hk
    rw [if_pos hc] at hk
    obtain ⟨q, hq, hk⟩ := bind_ok.1 hk
    have hq0 : q = 0 := by simpa using Except.ok.inj hk
    rw [hq0] at hq
    rw [C05_penalty_zero_iff _ _ _ _ h2 h6] at hq
    exact (C04_is_contig_iff _ _ h2 h6).1.1 hq
  · have hk := p1
    unfold disoOk at hk
    rw [if_pos hd] at hk
    obtain ⟨q, hq, hk⟩ := bind_ok.1 hk
    have hq0 : q = 0 := by simpa using Except.ok.inj hk
    rw [hq0] at hq
    have hrange : ∀ y ∈ row.filter (fun x => x != -1), -90 ≤ y ∧ y ≤ 90 := by
      intro y hy
      have := (C14_angles a S.c hcons).2.2.2.2.1 y (hin y hy)
      omega
    by_cases hne : (if S.c.damTol = true ∧ S.c.damTolAttr.twoPlies = true then 3 else 1) ≤
        (row.filter (fun x => x != -1)).length
    · rw [C03_penalty_exact _ _ _ _ hrange hne] at hq
      exact (disoViolations_eq_zero _ _).1 (Except.ok.inj hq)
    · intro i y z hy hz
      have hi1 := (List.getElem?_eq_some_iff.1 hz).1
      split_ifs at hne hi1 <;> (try simp only [List.length_dropLast, List.length_drop] at hi1) <;> omega

/-- C36: with the balance rule, each thicker panel is balanced or has one ply (one on each side of the mid-plane of a
symmetric laminate) of one angle in excess, if the reference panel is balanced. -/
theorem C36_balance (a : ConsArgs) (S : StripSetup) (lampams : List (List ℚ)) (sst : Table) (ss : List Stack)
    (pdlRef : Stack) (hcons : mkConstraints a = .ok S.c) (D : DesignedStrip S sst ss pdlRef) (hb : S.c.bal = true)
    (hang : ∀ x ∈ pdlRef, x ≠ -1 → x ∈ S.c.angles) (href : Spec.Balanced (pdlRef.filter (fun x => x != -1)))
    (sst' : Table) (lps : List (List ℚ)) (ss' : List Stack)
    (h : repairThinToThick S lampams sst ss = .ok (true, sst', lps, ss'))
    (p : Nat) (hp : S.r.indRef < p) (hpn : p < S.r.nPlies.length) :
    ∃ s, ss'[p]? = some s ∧ (Spec.Balanced s ∨ ∃ b : Int, ∀ x : Int, x ≠ 0 → x ≠ 90 → x ≠ -90 →
      (s.count x : Int) - s.count (-x) =
        (if S.c.sym then 2 else 1) * ((if x = b then 1 else 0) - (if x = -b then 1 else 0))) := by
  have C := D.toStripTable
  obtain ⟨s, _, hs, _, hin, _⟩ := C36_rules a S lampams sst ss pdlRef hcons D hang sst' lps ss' h p hp hpn
  obtain ⟨_, _, _, hrows, _⟩ := C36_nested_panels S lampams sst ss pdlRef D sst' lps ss' h
  obtain ⟨row, hr, _, hs', _⟩ := hrows p hpn
  rw [hs] at hs'
  have e := Option.some.inj hs'
  rcases thick_result D h with ⟨h1, _⟩ | ⟨x, I, h1, _, h2⟩
  · omega
  have hbase : (cleanTable pdlRef sst)[S.r.indRef]? = some (pdlRef.filter (fun x => x != -1)) := by
    rw [cleanTable_get, C.ref]
    exact congrArg some (cleanRow_self pdlRef)
  obtain ⟨q, _, hq1, hq2⟩ := I.bal hb _ hbase p hp.le (by omega) row (h2 p row hr)
  rw [← e] at hq2
  refine ⟨s, hs, ?_⟩
  have hneg : s.count (-1) = 0 := by
    rw [List.count_eq_zero]
    exact fun hmem => D.noMinusOne (hin _ hmem)
  have hpos : s.count 1 = 0 := by
    rw [List.count_eq_zero]
    exact fun hmem => D.noMinusOne ((C14_angles a S.c hcons).2.2.2.2.2.1 1 (hin _ hmem) (by decide))
  have himb : ∀ y : Int, y ≠ 0 → y ≠ 90 → y ≠ -90 → y ≠ 1 → y ≠ -1 → (s.count y : Int) - s.count (-y) =
      (q.map (fun b => (perSide S.c.sym : Int) * ((if y = b then 1 else 0) - (if y = -b then 1 else 0)))).sum := by
    intro y y0 y90 ym90 y1 ym1
    have e := hq2 y y0 y90 ym90 y1 ym1
    have e2 := href y y0 y90 ym90
    unfold imbalance at e
    rw [e, e2]
    ring
  have hbalanced : (∀ y : Int, y ≠ 1 → y ≠ -1 →
      (q.map (fun b => (perSide S.c.sym : Int) * ((if y = b then 1 else 0) - (if y = -b then 1 else 0)))).sum = 0) →
      Spec.Balanced s := by
    intro hz y y0 y90 ym90
    by_cases y1 : y = 1
    · rw [y1, hpos, hneg]
    by_cases ym1 : y = -1
    · rw [ym1, hneg, neg_neg, hpos]
    have := himb y y0 y90 ym90 y1 ym1
    rw [hz y y1 ym1] at this
    omega
  cases q with
  | nil => exact Or.inl (hbalanced (fun y _ _ => by simp))
  | cons b t =>
    have ht : t = [] := by
      cases t with
      | nil => rfl
      | cons => simp at hq1
    subst ht
    by_cases hb1 : b = 1 ∨ b = -1
    · refine Or.inl (hbalanced (fun y y1 ym1 => ?_))
      have e1 : ¬ y = b := by omega
      have e2 : ¬ y = -b := by omega
      simp [e1, e2]
    · refine Or.inr ⟨b, fun y y0 y90 ym90 => ?_⟩
      by_cases y1 : y = 1 ∨ y = -1
      · have e1 : ¬ y = b := by omega
        have e2 : ¬ y = -b := by omega
        rw [if_neg e1, if_neg e2]
        rcases y1 with rfl | rfl
        · rw [hpos, hneg]; simp
        · rw [hneg, neg_neg, hpos]; simp
      · rw [himb y y0 y90 ym90 (by tauto) (by tauto)]
        simp only [List.map_cons, List.map_nil, List.sum_cons, List.sum_nil, perSide]
        split_ifs <;> simp

/-! ### Examples and violations -/

/-- The rules of the example. -/
def thickArgs : ConsArgs where
  sym := true
  bal := true
  contig := true
  nContig := 2
  diso := true
  deltaAngle := 45
  covering := true
  nCovering := 1
  rule10 := true
  percent0 := 10
  percent90 := 10
  percent45_135 := 20
  pdlSpacing := true
  minDrop := 2

/-- The reference row (10 plies) and the row of a thinner panel (8 plies), 14 columns. -/
def thickRow : Stack := [45, 0, -1, -1, 90, -45, 90, 90, -45, 90, -1, -1, 0, 45]
def thickRow0 : Stack := [45, 0, -1, -1, 90, -45, -1, -1, -45, 90, -1, -1, 0, 45]

/-- A table and laminates for which the checks succeed. -/
theorem designed_of (S : StripSetup) (sst : Table) (ss : List Stack) (pdlRef : Stack) (plies : List Nat) (sym : Bool)
    (nRef : Int) (bs : List (Nat × Nat)) (bw : List ((Nat × Nat) × ℚ)) (hs : S.c.sym = sym)
    (hr : mkReduced plies sym nRef bs bw = .ok S.r) (hpar : sym = true → ∀ n ∈ plies, ∀ m ∈ plies, n % 2 = m % 2)
    (hm1 : (-1 : Int) ∉ S.c.angles)
    (h : sst.length = S.r.nPlies.length ∧ ss.length = S.r.nPlies.length ∧ sst[S.r.indRef]? = some pdlRef ∧
      S.r.nPlies[S.r.nPlies.length - 1]? = some pdlRef.length ∧
      S.r.nPlies[S.r.indRef]? = some (pdlRef.filter (fun x => x != -1)).length ∧ pdlRef.reverse = pdlRef)
    (h2 : ∀ p ∈ List.range (S.r.indRef + 1), (sst.getD p []).length = pdlRef.length ∧ (sst[p]?).isSome = true ∧
      ss[p]? = some ((sst.getD p []).filter (fun x => x != -1)) ∧ (sst.getD p []).reverse = sst.getD p [] ∧
      S.r.nPlies[p]? = some ((sst.getD p []).filter (fun x => x != -1)).length)
    (h3 : ∀ p ∈ List.range S.r.indRef, ∀ j ∈ List.range pdlRef.length,
      (sst.getD p []).getD j 0 = (sst.getD (p + 1) []).getD j 0 ∨ (sst.getD p []).getD j 0 = -1) :
    DesignedStrip S sst ss pdlRef where
  toStripTable := stripTable_of S sst ss pdlRef plies sym nRef bs bw hs hr hpar h
  noMinusOne := hm1
  rows := fun p hp => by
    obtain ⟨g1, g2, g3, g4, g5⟩ := h2 p (List.mem_range.2 (by omega))
    obtain ⟨row, e⟩ := Option.isSome_iff_exists.1 g2
    rw [List.getD_eq_getElem?_getD, e, Option.getD_some] at g1 g3 g4 g5
    exact ⟨row, e, g1, g3, fun _ => g4, g5⟩
  nested := fun p hp row up hr hu j => by
    obtain ⟨g1, _⟩ := h2 p (List.mem_range.2 (by omega))
    obtain ⟨k1, _⟩ := h2 (p + 1) (List.mem_range.2 (by omega))
    rw [List.getD_eq_getElem?_getD, hr, Option.getD_some] at g1
    rw [List.getD_eq_getElem?_getD, hu, Option.getD_some] at k1
    by_cases hj : j < pdlRef.length
    · have := h3 p (List.mem_range.2 hp) j (List.mem_range.2 hj)
      simp only [List.getD_eq_getElem?_getD, hr, hu, Option.getD_some] at this
      rw [List.getElem?_eq_getElem (show j < row.length by omega),
        List.getElem?_eq_getElem (show j < up.length by omega), Option.getD_some, Option.getD_some] at this
      rw [List.getElem?_eq_getElem (by omega), List.getElem?_eq_getElem (by omega)]
      rcases this with e | e
      · exact Or.inl (congrArg some e)
      · exact Or.inr (congrArg some e)
    · left
      rw [List.getElem?_eq_none (by omega), List.getElem?_eq_none (by omega)]

set_option synthInstance.maxHeartbeats 200000 in
set_option synthInstance.maxSize 1000 in
/-- Panels of 8, 10 and 14 plies: the thickest one is designed with all the rules. -/
example : ∃ c r, mkConstraints thickArgs = .ok c ∧ c.bal = true ∧ c.diso = true ∧ r.indRef = 1 ∧
    DesignedStrip (stripSetup c r [[0], [0, 90], [45]]) [thickRow0, thickRow, thickRow]
      (convertSstToSs [thickRow0, thickRow, thickRow]) thickRow ∧
    (∀ x ∈ thickRow, x ≠ -1 → x ∈ c.angles) ∧ Spec.Balanced (thickRow.filter (fun x => x != -1)) ∧
    ∃ lps, repairThinToThick (stripSetup c r [[0], [0, 90], [45]])
        ((convertSstToSs [thickRow0, thickRow, thickRow]).map stripLampam) [thickRow0, thickRow, thickRow]
        (convertSstToSs [thickRow0, thickRow, thickRow]) =
      .ok (true,
        [[45, 0, -1, 90, -45, -1, -1, -1, -1, -45, 90, -1, 0, 45],
         [45, 0, -1, 90, -45, 90, -1, -1, 90, -45, 90, -1, 0, 45],
         [45, 0, -45, 90, -45, 90, 45, 45, 90, -45, 90, -45, 0, 45]],
        lps,
        [[45, 0, 90, -45, -45, 90, 0, 45], [45, 0, 90, -45, 90, 90, -45, 90, 0, 45],
         [45, 0, -45, 90, -45, 90, 45, 45, 90, -45, 90, -45, 0, 45]]) := by
  obtain ⟨c, hc, ht⟩ := ok_of_test (mkConstraints thickArgs) (fun (c : Cons) =>
    match mkReduced [14, 10, 8] true 10 [(0, 1), (1, 2)] [((0, 1), 1), ((1, 2), 1)] with
    | .error _ => false
    | .ok r => decide (c.angles = [-45, 0, 45, 90] ∧ c.sym = true ∧ c.bal = true ∧ c.diso = true ∧ r.indRef = 1 ∧
        r.nPlies = [8, 10, 14]) &&
      match repairThinToThick (stripSetup c r [[0], [0, 90], [45]])
        ((convertSstToSs [thickRow0, thickRow, thickRow]).map stripLampam) [thickRow0, thickRow, thickRow]
        (convertSstToSs [thickRow0, thickRow, thickRow]) with
      | .error _ => false
      | .ok x => decide (x.1 = true ∧ x.2.1 =
        [[45, 0, -1, 90, -45, -1, -1, -1, -1, -45, 90, -1, 0, 45],
         [45, 0, -1, 90, -45, 90, -1, -1, 90, -45, 90, -1, 0, 45],
         [45, 0, -45, 90, -45, 90, 45, 45, 90, -45, 90, -45, 0, 45]] ∧ x.2.2.2 =
        [[45, 0, 90, -45, -45, 90, 0, 45], [45, 0, 90, -45, 90, 90, -45, 90, 0, 45],
         [45, 0, -45, 90, -45, 90, 45, 45, 90, -45, 90, -45, 0, 45]])) (by decide +kernel)
  split at ht
  · cases ht
  · rename_i r hr
    rw [Bool.and_eq_true] at ht
    obtain ⟨h1, h2⟩ := ht
    obtain ⟨t1, t2, tb, td, t3, t4⟩ := of_decide_eq_true h1
    split at h2
    · cases h2
    · rename_i x hx
      obtain ⟨g1, g2, g3⟩ := of_decide_eq_true h2
      obtain ⟨x1, x2, x3, x4⟩ := x
      dsimp only at g1 g2 g3
      subst g1 g2 g3
      refine ⟨c, r, hc, tb, td, t3, ?_, by rw [t1]; decide, ?_, x3, hx⟩
      · refine designed_of _ _ _ _ _ true _ _ _ t2 hr (fun _ => by decide)
          (by change (-1 : Int) ∉ c.angles; rw [t1]; decide) ?_ ?_ ?_
        · change _ = r.nPlies.length ∧ _ = r.nPlies.length ∧ _[r.indRef]? = _ ∧
            r.nPlies[r.nPlies.length - 1]? = _ ∧ r.nPlies[r.indRef]? = _ ∧ _
          rw [t3, t4]
          decide
        · change ∀ p ∈ List.range (r.indRef + 1), _ ∧ _ ∧ _ ∧ _ ∧ r.nPlies[p]? = _
          rw [t3, t4]
          decide
        · change ∀ p ∈ List.range r.indRef, _
          rw [t3]
          decide
      · intro a _ _ _
        by_cases h : a = 45 ∨ a = -45
        · rcases h with rfl | rfl <;> decide
        · rw [List.count_eq_zero.2, List.count_eq_zero.2] <;> intro hm <;> simp [thickRow] at hm <;> omega

/-- Rows of 12 and 10 plies. -/
def balRow : Stack := [45, 0, 90, -45, 90, -1, -1, 90, -45, 90, 0, 45]

/-- C36 (violated): a repair that ends with success can return an unbalanced panel although balance is required and the
reference panel is balanced. -/
theorem C36_balance_violation : ∃ S sst ss pdlRef, mkConstraints thickArgs = .ok S.c ∧
    DesignedStrip S sst ss pdlRef ∧ S.c.bal = true ∧ Spec.Balanced (pdlRef.filter (fun x => x != -1)) ∧
    ∃ lampams sst' lps ss', repairThinToThick S lampams sst ss = .ok (true, sst', lps, ss') ∧
      ∃ s ∈ ss', ¬ Spec.Balanced s := by
  obtain ⟨c, hc, ht⟩ := ok_of_test (mkConstraints thickArgs) (fun (c : Cons) =>
    match mkReduced [12, 10] true 10 [(0, 1)] [((0, 1), 1)] with
    | .error _ => false
    | .ok r => decide (c.angles = [-45, 0, 45, 90] ∧ c.sym = true ∧ c.bal = true ∧ r.indRef = 0 ∧
        r.nPlies = [10, 12]) &&
      match repairThinToThick (stripSetup c r [[0], [0, 90]])
        ((convertSstToSs [balRow, balRow]).map stripLampam) [balRow, balRow]
        (convertSstToSs [balRow, balRow]) with
      | .error _ => false
      | .ok x => x.1 && x.2.2.2.any (fun s => s.count 45 != s.count (-45))) (by decide +kernel)
  split at ht
  · cases ht
  · rename_i r hr
    rw [Bool.and_eq_true] at ht
    obtain ⟨h1, h2⟩ := ht
    obtain ⟨t1, t2, tb, t3, t4⟩ := of_decide_eq_true h1
    split at h2
    · cases h2
    · rename_i x hx
      rw [Bool.and_eq_true, List.any_eq_true] at h2
      obtain ⟨g1, s, g2, g3⟩ := h2
      obtain ⟨x1, x2, x3, x4⟩ := x
      dsimp only at g1 g2 g3
      subst g1
      refine ⟨stripSetup c r [[0], [0, 90]], [balRow, balRow], convertSstToSs [balRow, balRow], balRow, hc, ?_, tb, ?_,
        _, _, _, _, hx, s, g2, fun h => ?_⟩
      · refine designed_of _ _ _ _ _ true _ _ _ t2 hr (fun _ => by decide)
          (by change (-1 : Int) ∉ c.angles; rw [t1]; decide) ?_ ?_ ?_
        · change _ = r.nPlies.length ∧ _ = r.nPlies.length ∧ _[r.indRef]? = _ ∧
            r.nPlies[r.nPlies.length - 1]? = _ ∧ r.nPlies[r.indRef]? = _ ∧ _
          rw [t3, t4]
          decide
        · change ∀ p ∈ List.range (r.indRef + 1), _ ∧ _ ∧ _ ∧ _ ∧ r.nPlies[p]? = _
          rw [t3, t4]
          decide
        · change ∀ p ∈ List.range r.indRef, _
          rw [t3]
          decide
      · intro a _ _ _
        by_cases h : a = 45 ∨ a = -45
        · rcases h with rfl | rfl <;> decide
        · rw [List.count_eq_zero.2, List.count_eq_zero.2] <;> intro hm <;> simp [balRow] at hm <;> omega
      · have := h 45 (by decide) (by decide) (by decide)
        rw [this] at g3
        simp at g3

/-- The 10% rule with larger percentages. -/
def thirtyArgs : ConsArgs where
  sym := true
  rule10 := true
  percent0 := 30
  percent90 := 30

/-- A reference row of 4 plies in 8 columns. -/
def thirtyRow : Stack := [0, 90, -1, -1, -1, -1, 90, 0]

/-- C36 (violated): a repair that ends with success can return a panel that violates the 10% rule (here 2 plies of 8 at 0
where 30% are required) although the reference panel meets it. -/
theorem C36_ten_percent_violation : ∃ S sst ss, mkConstraints thirtyArgs = .ok S.c ∧ S.c.rule10 = true ∧
    S.c.p0 = 3 / 10 ∧ DesignedStrip S sst ss thirtyRow ∧
    ∃ lampams sst' lps ss', repairThinToThick S lampams sst ss = .ok (true, sst', lps, ss') ∧
      ∃ s ∈ ss', s = [0, 90, 90, 45, 45, 90, 90, 0] := by
  obtain ⟨c, hc, ht⟩ := ok_of_test (mkConstraints thirtyArgs) (fun (c : Cons) =>
    match mkReduced [8, 4] true 4 [(0, 1)] [((0, 1), 1)] with
    | .error _ => false
    | .ok r => decide (c.angles = [-45, 0, 45, 90] ∧ c.sym = true ∧ c.rule10 = true ∧ c.p0 = 3 / 10 ∧ r.indRef = 0 ∧
        r.nPlies = [4, 8]) &&
      match repairThinToThick (stripSetup c r [[0], [0, 90, 0, 90, 90, 0, 90, 0]])
        ((convertSstToSs [thirtyRow, thirtyRow]).map stripLampam) [thirtyRow, thirtyRow]
        (convertSstToSs [thirtyRow, thirtyRow]) with
      | .error _ => false
      | .ok x => x.1 && x.2.2.2.any (fun s => s == [0, 90, 90, 45, 45, 90, 90, 0])) (by decide +kernel)
  split at ht
  · cases ht
  · rename_i r hr
    rw [Bool.and_eq_true] at ht
    obtain ⟨h1, h2⟩ := ht
    obtain ⟨t1, t2, ta, tb, t3, t4⟩ := of_decide_eq_true h1
    split at h2
    · cases h2
    · rename_i x hx
      rw [Bool.and_eq_true, List.any_eq_true] at h2
      obtain ⟨g1, s, g2, g3⟩ := h2
      obtain ⟨x1, x2, x3, x4⟩ := x
      dsimp only at g1 g2 g3
      subst g1
      refine ⟨stripSetup c r [[0], [0, 90, 0, 90, 90, 0, 90, 0]], [thirtyRow, thirtyRow],
        convertSstToSs [thirtyRow, thirtyRow], hc, ta, tb, ?_, _, _, _, _, hx, s, g2, by simpa using g3⟩
      refine designed_of _ _ _ _ _ true _ _ _ t2 hr (fun _ => by decide)
        (by change (-1 : Int) ∉ c.angles; rw [t1]; decide) ?_ ?_ ?_
      · change _ = r.nPlies.length ∧ _ = r.nPlies.length ∧ _[r.indRef]? = _ ∧
          r.nPlies[r.nPlies.length - 1]? = _ ∧ r.nPlies[r.indRef]? = _ ∧ _
        rw [t3, t4]
        decide
      · change ∀ p ∈ List.range (r.indRef + 1), _ ∧ _ ∧ _ ∧ _ ∧ r.nPlies[p]? = _
        rw [t3, t4]
        decide
      · change ∀ p ∈ List.range r.indRef, _
        rw [t3]
        decide

/-- A reference row of 4 plies in 6 columns. -/
def fourRow : Stack := [0, 90, -1, -1, 90, 0]

/-- C35 (violated), thin-to-thick: the target of the thicker panel is met exactly by adding plies at 45 on both faces, but
the repair adds plies at 0 in the middle and reports the lamination parameters of the target. -/
theorem C35_selection_violation_thick : ∃ S sst ss, mkConstraints symArgs = .ok S.c ∧ DesignedStrip S sst ss fourRow ∧
    S.lampam = stripLampam ∧ S.targets[1]? = some (stripLampam [45, 0, 90, 90, 0, 45]) ∧
    S.weights[1]? = some (List.replicate 8 1) ∧
    ∃ lampams sst' lps ss', repairThinToThick S lampams sst ss = .ok (true, sst', lps, ss') ∧
      ss'[1]? = some [0, 90, 0, 0, 90, 0] ∧ lps[1]? = some (stripLampam [45, 0, 90, 90, 0, 45]) ∧
      objOnePanel (stripLampam [0, 90, 0, 0, 90, 0]) (stripLampam [45, 0, 90, 90, 0, 45]) (List.replicate 8 1) =
        .ok (260 / 81) ∧
      objOnePanel (stripLampam [45, 0, 90, 90, 0, 45]) (stripLampam [45, 0, 90, 90, 0, 45]) (List.replicate 8 1) =
        .ok 0 := by
  obtain ⟨c, hc, ht⟩ := ok_of_test (mkConstraints symArgs) (fun (c : Cons) =>
    match mkReduced [6, 4] true 4 [(0, 1)] [((0, 1), 1)] with
    | .error _ => false
    | .ok r => decide (c.angles = [-45, 0, 45, 90] ∧ c.sym = true ∧ r.indRef = 0 ∧ r.nPlies = [4, 6]) &&
      match repairThinToThick (stripSetup c r [[0], [45, 0, 90, 90, 0, 45]])
        ((convertSstToSs [fourRow, fourRow]).map stripLampam) [fourRow, fourRow] (convertSstToSs [fourRow, fourRow]) with
      | .error _ => false
      | .ok x => decide (x.1 = true ∧ x.2.2.1[1]? = some (stripLampam [45, 0, 90, 90, 0, 45]) ∧
        x.2.2.2[1]? = some [0, 90, 0, 0, 90, 0])) (by decide +kernel)
  split at ht
  · cases ht
  · rename_i r hr
    rw [Bool.and_eq_true] at ht
    obtain ⟨h1, h2⟩ := ht
    obtain ⟨t1, t2, t3, t4⟩ := of_decide_eq_true h1
    split at h2
    · cases h2
    · rename_i x hx
      obtain ⟨g1, g2, g3⟩ := of_decide_eq_true h2
      obtain ⟨x1, x2, x3, x4⟩ := x
      dsimp only at g1 g2 g3
      subst g1
      refine ⟨stripSetup c r [[0], [45, 0, 90, 90, 0, 45]], [fourRow, fourRow], convertSstToSs [fourRow, fourRow], hc, ?_,
        rfl, rfl, rfl, _, _, _, _, hx, g3, g2, by decide +kernel, by decide +kernel⟩
      refine designed_of _ _ _ _ _ true _ _ _ t2 hr (fun _ => by decide)
        (by change (-1 : Int) ∉ c.angles; rw [t1]; decide) ?_ ?_ ?_
      · change _ = r.nPlies.length ∧ _ = r.nPlies.length ∧ _[r.indRef]? = _ ∧
          r.nPlies[r.nPlies.length - 1]? = _ ∧ r.nPlies[r.indRef]? = _ ∧ _
        rw [t3, t4]
        decide
      · change ∀ p ∈ List.range (r.indRef + 1), _ ∧ _ ∧ _ ∧ _ ∧ r.nPlies[p]? = _
        rw [t3, t4]
        decide
      · change ∀ p ∈ List.range r.indRef, _
        rw [t3]
        decide

end Bella
