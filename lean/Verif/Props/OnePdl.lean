import Verif.Proofs.OnePdl
import Verif.Props.RepairMp
import Verif.Props.Reduced
import Verif.Props.Objectives
import Verif.Props.Contig
import Verif.Props.Diso
import Verif.Props.TenPercent
/-
C62: what `BELLA_optimiser_one_pdl` returns for one initial ply drop layout.
-/
namespace Bella

variable {V : Type} [AddMonoid V]

/-- One call of the optimiser for a structure with `plies` plies per panel: the search and the repairs work with the same
accepted constraints and the same blending strip; the ply counts have the same parity for symmetric laminates; the layout has
one row of `w` columns per panel of the strip, with as many plies as the panel and none dropped in the thickest
one, the drops are symmetric for symmetric laminates and outside of the covering plies; and the repair of a reference
panel with allowed plies is covered by C59 and C60. -/
structure OneCase (a : ConsArgs) (P : Problem V) (O : OneSetup) (cs : Int → Nat → ℚ) (plies : List Nat) (w : Nat) :
    Prop where
  cons : mkConstraints a = .ok P.c
  sameR : O.R.c = P.c
  sameS : O.S.c = P.c
  objBound : ∀ o q, P.objMp o = .ok q → -6666 < q
  reduced : ∃ (nRef : Int) (bs : List (Nat × Nat)) (bw : List ((Nat × Nat) × ℚ)), mkReduced plies P.c.sym nRef bs bw = .ok O.S.r
  parity : P.c.sym = true → ∀ n ∈ plies, ∀ m ∈ plies, n % 2 = m % 2
  noMinusOne : (-1 : Int) ∉ P.c.angles
  panels : P.nPanels = O.S.r.nPlies.length
  rows : P.pdl.length = O.S.r.nPlies.length
  width : ∀ row ∈ P.pdl, row.length = w
  full : O.S.r.nPlies[O.S.r.nPlies.length - 1]? = some w
  count : ∀ (p n : Nat) (row : Stack), O.S.r.nPlies[p]? = some n → P.pdl[p]? = some row → row.countP (fun x => x != -1) = n
  symm : P.c.sym = true → ∀ row ∈ P.pdl, ∀ (j : Nat), row[j]? = some (-1) ↔ row.reverse[j]? = some (-1)
  cov : P.c.covering = true → (∀ n ∈ plies, P.c.nCovering ≤ n) ∧ ∀ row ∈ P.pdl, ∀ (j : Nat), j < P.c.nCovering →
    row[j]? ≠ some (-1) ∧ row.reverse[j]? ≠ some (-1)
  repair : ∀ s : Stack, O.S.r.nPlies[O.S.r.indRef]? = some s.length → (∀ x ∈ s, x ∈ P.c.angles) →
    (P.c.sym = true → Spec.Symmetric s) → RepairCase a O.R cs s

theorem one_mem {a : ConsArgs} {P : Problem V} {O : OneSetup} {cs : Int → Nat → ℚ} {plies : List Nat} {w : Nat}
    (M : OneCase a P O cs plies w) {n : Nat} : n ∈ O.S.r.nPlies ↔ n ∈ plies := by
  obtain ⟨nRef, bs, bw, hr⟩ := M.reduced
  exact (C15_reduction plies _ nRef bs bw _ hr).2.1 n

/-- The laminates assembled from a node of the search are a strip that can be repaired. -/
theorem one_strip {a : ConsArgs} {P : Problem V} {O : OneSetup} {cs : Int → Nat → ℚ} {plies : List Nat} {w : Nat}
    (M : OneCase a P O cs plies w) {x : Node V} (hx : PliesAllowed P x) {ss : List Stack}
    (h : assembleNode O x.bot x.top = .ok ss) :
    ∃ guide ssRef rowRef : Stack, guide.length = w ∧ MpCase a O.R cs O.S ss P.pdl guide ssRef rowRef ∧
      rowRef ∈ P.pdl ∧ ssRef.length ∈ plies := by
  obtain ⟨hlen, hs⟩ := assembleNode_ok h
  obtain ⟨nRef, bs, bw, hr⟩ := M.reduced
  obtain ⟨m, hm, _⟩ := C16_reference_panel plies _ nRef bs bw _ hr
  have hpl : ∀ (p : Nat) (s : Stack), ss[p]? = some s →
      O.S.r.nPlies[p]? = some s.length ∧ (P.c.sym = true → Spec.Symmetric s) ∧ ∀ y ∈ s, y ∈ P.c.angles := by
    intro p s hp
    have hlt : p < O.S.r.nPlies.length := by rw [← hlen]; exact (List.getElem?_eq_some_iff.1 hp).1
    obtain ⟨s', k1, k2, k3, k4⟩ := hs p _ (List.getElem?_eq_getElem hlt)
    rw [hp] at k1
    cases k1
    refine ⟨by rw [k2]; exact List.getElem?_eq_getElem hlt, fun hsym => k3 (by rw [M.sameS]; exact hsym), fun y hy => ?_⟩
    rcases k4 y hy with ⟨b, e, hb⟩ | ⟨b, e, hb⟩
    · exact hx.1 p b e y hb
    · exact hx.2 p b e y hb
  obtain ⟨ssRef, hssRef, hssLen, _⟩ := hs _ _ hm
  obtain ⟨guide, hg, hgl, _⟩ := hs _ _ M.full
  have hne : ss ≠ [] := by rintro rfl; simp at hg
  have hlast : ss.getLast? = some guide := by rw [List.getLast?_eq_getElem?, hlen, hg]
  have hgm : (-1 : Int) ∉ guide := fun hh => M.noMinusOne ((hpl _ _ hg).2.2 _ hh)
  have hmlt : O.S.r.indRef < P.pdl.length := by rw [M.rows]; exact (List.getElem?_eq_some_iff.1 hm).1
  have hrow : P.pdl[O.S.r.indRef]? = some P.pdl[O.S.r.indRef] := List.getElem?_eq_getElem hmlt
  refine ⟨guide, ssRef, P.pdl[O.S.r.indRef], hgl, ⟨⟨by rw [hlen, M.rows], hlast, hgm, ?_, ?_, hssRef, hrow, ?_⟩, ?_, ?_, ?_,
    ?_, M.rows, ?_, ?_, ?_⟩, List.getElem_mem hmlt, ?_⟩
  · intro row hr
    rw [M.width row hr, hgl]
  · intro row hl hd
    have hl' : P.pdl[O.S.r.nPlies.length - 1]? = some row := by rw [← M.rows, ← List.getLast?_eq_getElem?, hl]
    have hc := M.count _ _ _ M.full hl'
    have hw := M.width row (List.mem_of_getElem? hl')
    rw [← hw, List.countP_eq_length] at hc
    have := hc _ hd
    simp at this
  · rw [M.count _ _ _ hm hrow, hssLen]
  · exact M.repair ssRef (hpl _ _ hssRef).1 (hpl _ _ hssRef).2.2 (hpl _ _ hssRef).2.1
  · rw [M.sameS, M.sameR]
  · rw [M.sameR]; exact M.noMinusOne
  · exact ⟨plies, nRef, bs, bw, by rw [M.sameS]; exact hr, by rw [M.sameS]; exact M.parity⟩
  · rw [hgl]; exact M.full
  · exact (hpl _ _ hssRef).1
  · rw [M.sameR]; exact fun hsym => M.symm hsym _ (List.getElem_mem hmlt)
  · rw [← one_mem M, hssLen]; exact List.mem_of_getElem? hm

/-- The designs evaluated come from repaired strips. -/
theorem one_designs {a : ConsArgs} {P : Problem V} {O : OneSetup} {cs : Int → Nat → ℚ} {plies : List Nat} {w : Nat}
    (M : OneCase a P O cs plies w) {t : Tabs V} (ht : beamSearch P = .ok t) {ds : List Design}
    (hd : repairNodes O P.pdl w (t.bots.zip t.tops) = some (.ok ds)) {d : Design} (h : d ∈ ds) :
    ∃ (bot top : List Stack) (ss : List Stack) (r : MpResult) (guide ssRef rowRef : Stack), guide.length = w ∧
      MpCase a O.R cs O.S ss P.pdl guide ssRef rowRef ∧ rowRef ∈ P.pdl ∧ ssRef.length ∈ plies ∧
      repairMp O.R O.ipoOk O.S ss P.pdl guide.length = some (.ok r) ∧ d.success = r.success ∧ d.ss = r.ss ∧ d.sst = r.sst ∧
      d.pdl = r.pdl ∧ repairNode O P.pdl w bot top = some (.ok d) := by
  obtain ⟨ns, rfl, hns⟩ := search_allowed M.cons M.objBound ht
  have h1 := repairNodes_ok hd
  obtain ⟨i, hi, e⟩ := List.getElem_of_mem h
  have hl := h1.length_eq
  have h2 := List.Forall₂.get h1 (i := i) (by omega) hi
  simp only [List.get_eq_getElem, e] at h2
  have hz : i < ns.length := by
    rw [← hl] at hi
    simpa [tabsOf] using hi
  simp only [tabsOf, List.getElem_zip, List.getElem_map] at h2
  obtain ⟨ss, r, p, k1, k2, k3, k4, k5, k6, _⟩ := repairNode_ok h2
  obtain ⟨guide, ssRef, rowRef, g1, g2, g3, g4⟩ := one_strip M (hns _ (List.getElem_mem hz)) k1
  exact ⟨_, _, ss, r, guide, ssRef, rowRef, g1, g2, g3, g4, by rw [g1]; exact k2, k3, k4, k5, k6, h2⟩

/-- The parts of the results. -/
theorem finishDesign_ok {O : OneSetup} {nPanels : Nat} {ss : List Stack} {sst pdl : Table} {lampams counts : List (List ℚ)}
    {objsNo : List ℚ} {obj : ℚ} {res : OneResult}
    (h : finishDesign O nPanels ss sst pdl lampams counts objsNo obj = .ok res) :
    res.obj = obj ∧ extendData O.S.r nPanels ss = .ok res.ss ∧ extendData O.S.r nPanels sst = .ok res.sst ∧
      extendData O.S.r nPanels pdl = .ok res.pdl ∧ extendData O.S.r nPanels lampams = .ok res.lampams ∧
      extendData O.S.r nPanels counts = .ok res.counts ∧ extendData O.S.r nPanels objsNo = .ok res.objsNo ∧
      ∃ p : Penalties, calcPenalties O ss lampams counts = .ok p ∧ extendData O.S.r nPanels p.nDiso = .ok res.nDiso ∧
        extendData O.S.r nPanels p.nContig = .ok res.nContig ∧ extendData O.S.r nPanels p.diso = .ok res.penDiso ∧
        extendData O.S.r nPanels p.contig = .ok res.penContig ∧ extendData O.S.r nPanels p.ten = .ok res.pen10 := by
  unfold finishDesign at h
  obtain ⟨_, _, h⟩ := bind_ok.1 h
  obtain ⟨_, _, h⟩ := bind_ok.1 h
  obtain ⟨test, _, h⟩ := bind_ok.1 h
  obtain ⟨_, _, h⟩ := bind_ok.1 h
  obtain ⟨p, hp, h⟩ := bind_ok.1 h
  obtain ⟨testObj, _, h⟩ := bind_ok.1 h
  obtain ⟨_, _, h⟩ := bind_ok.1 h
  obtain ⟨bal, _, h⟩ := bind_ok.1 h
  obtain ⟨oopo, _, h⟩ := bind_ok.1 h
  obtain ⟨spacing, _, h⟩ := bind_ok.1 h
  unfold extendResults at h
  obtain ⟨v1, e1, h⟩ := bind_ok.1 h
  obtain ⟨v2, e2, h⟩ := bind_ok.1 h
  obtain ⟨v3, e3, h⟩ := bind_ok.1 h
  obtain ⟨v4, e4, h⟩ := bind_ok.1 h
  obtain ⟨v5, e5, h⟩ := bind_ok.1 h
  obtain ⟨v6, e6, h⟩ := bind_ok.1 h
  obtain ⟨v7, e7, h⟩ := bind_ok.1 h
  obtain ⟨v8, e8, h⟩ := bind_ok.1 h
  obtain ⟨v9, e9, h⟩ := bind_ok.1 h
  obtain ⟨v10, e10, h⟩ := bind_ok.1 h
  obtain ⟨v11, e11, h⟩ := bind_ok.1 h
  obtain ⟨v12, e12, h⟩ := bind_ok.1 h
  obtain ⟨v13, e13, h⟩ := bind_ok.1 h
  have h := Except.ok.inj h
  subst h
  exact ⟨rfl, e1, e12, e13, e2, e3, e4, p, hp, e10, e11, e5, e6, e7⟩

/-- The design returned. -/
theorem one_selected {P : Problem V} {O : OneSetup} {plies : List Nat} {w : Nat} {res : OneResult}
    (h : optimiserOnePdl P O false plies.length w = some (.ok (some res))) :
    ∃ (t : Tabs V) (ds : List Design) (d : Design), beamSearch P = .ok t ∧
      repairNodes O P.pdl w (t.bots.zip t.tops) = some (.ok ds) ∧ d ∈ ds ∧ (∀ d' ∈ ds, d.obj ≤ d'.obj) ∧
      finishDesign O plies.length d.ss d.sst d.pdl d.lampams d.counts d.objsNo d.obj = .ok res := by
  unfold optimiserOnePdl at h
  split at h
  · cases h
  · rename_i t ht
    split at h
    · cases h
    · cases h
    · rename_i ds hds
      obtain ⟨d, h1, h2, h3⟩ := finishOne_ok (Option.some.inj h)
      exact ⟨t, ds, d, ht, hds, h1, h2, h3⟩

/-- A design with an objective other than 1e10 has been repaired with success. -/
theorem success_of_obj {O : OneSetup} {pdl : Table} {w : Nat} {bot top : List Stack} {d : Design} (hn : O.S.r.nPlies ≠ [])
    (h : repairNode O pdl w bot top = some (.ok d)) (ho : d.obj ≠ failObj) : d.success = true := by
  obtain ⟨_, _, p, _, _, _, _, _, _, _, _, _, h1, h2⟩ := repairNode_ok h
  by_contra hs
  unfold designObjs at h1
  rw [if_neg hs] at h1
  have h1 := Except.ok.inj h1
  apply ho
  unfold designObj at h2
  rw [if_neg] at h2
  · exact (Except.ok.inj h2).symm
  · rw [← h1]
    simp [hn]

/-- Everything known about the design returned. -/
theorem one_result {a : ConsArgs} {P : Problem V} {O : OneSetup} {cs : Int → Nat → ℚ} {plies : List Nat} {w : Nat}
    (M : OneCase a P O cs plies w) {res : OneResult} (h : optimiserOnePdl P O false plies.length w = some (.ok (some res)))
    (ho : res.obj ≠ failObj) :
    ∃ (bot top ss : List Stack) (r : MpResult) (guide ssRef rowRef : Stack) (d : Design), guide.length = w ∧
      MpCase a O.R cs O.S ss P.pdl guide ssRef rowRef ∧ rowRef ∈ P.pdl ∧ ssRef.length ∈ plies ∧
      repairMp O.R O.ipoOk O.S ss P.pdl guide.length = some (.ok r) ∧ r.success = true ∧ d.success = true ∧
      d.ss = r.ss ∧ d.sst = r.sst ∧ d.pdl = P.pdl ∧ repairNode O P.pdl w bot top = some (.ok d) ∧
      finishDesign O plies.length d.ss d.sst d.pdl d.lampams d.counts d.objsNo d.obj = .ok res := by
  obtain ⟨t, ds, d, h1, h2, h3, h4, h5⟩ := one_selected h
  obtain ⟨bot, top, ss, r, guide, ssRef, rowRef, g1, g2, g3, g4, g5, g6, g7, g8, g9, g10⟩ := one_designs M h1 h2 h3
  have hd : d.success = true := by
    refine success_of_obj (O := O) ?_ g10 (by rw [← (finishDesign_ok h5).1]; exact ho)
    have := M.full
    intro e
    rw [e] at this
    simp at this
  have hs : r.success = true := by rw [← g6]; exact hd
  exact ⟨bot, top, ss, r, guide, ssRef, rowRef, d, g1, g2, g3, g4, g5, hs, hd, g7, g8, by rw [g9]; exact (mp_success g5 hs).2.1,
    g10, h5⟩

/-- Data of the strip read off at a panel of the structure. -/
theorem one_extend {a : ConsArgs} {P : Problem V} {O : OneSetup} {cs : Int → Nat → ℚ} {plies : List Nat} {w : Nat}
    (M : OneCase a P O cs plies w) {α : Type} {data e : List α} (hl : data.length = O.S.r.nPlies.length)
    (h : extendData O.S.r plies.length data = .ok e) :
    e.length = plies.length ∧ ∀ (i n p : Nat), plies[i]? = some n → O.S.r.nPlies[p]? = some n → e[i]? = data[p]? := by
  obtain ⟨nRef, bs, bw, hr⟩ := M.reduced
  obtain ⟨e', h1, h2, h3⟩ := extendData_ok hr data hl
  rw [h] at h1
  cases h1
  refine ⟨h2, fun i n p hi hp => ?_⟩
  rw [h3 i n hi]
  congr 1
  obtain ⟨hlt, rfl⟩ := List.getElem?_eq_some_iff.1 hp
  have hsort := (C15_reduction plies _ nRef bs bw _ hr).1
  exact List.Nodup.idxOf_getElem (hsort.imp (fun h => Nat.ne_of_lt h)) _ hlt

theorem one_panel {a : ConsArgs} {P : Problem V} {O : OneSetup} {cs : Int → Nat → ℚ} {plies : List Nat} {w : Nat}
    (M : OneCase a P O cs plies w) {i n : Nat} (h : plies[i]? = some n) : ∃ p : Nat, O.S.r.nPlies[p]? = some n := by
  have := (one_mem M).2 (List.mem_of_getElem? h)
  obtain ⟨p, hp, e⟩ := List.getElem_of_mem this
  exact ⟨p, by rw [List.getElem?_eq_getElem hp, e]⟩

theorem one_sorted {a : ConsArgs} {P : Problem V} {O : OneSetup} {cs : Int → Nat → ℚ} {plies : List Nat} {w : Nat}
    (M : OneCase a P O cs plies w) {p q n m : Nat} (hp : O.S.r.nPlies[p]? = some n) (hq : O.S.r.nPlies[q]? = some m) :
    (n ≤ m ↔ p ≤ q) := by
  obtain ⟨nRef, bs, bw, hr⟩ := M.reduced
  have hsort := (C15_reduction plies _ nRef bs bw _ hr).1
  obtain ⟨h1, rfl⟩ := List.getElem?_eq_some_iff.1 hp
  obtain ⟨h2, rfl⟩ := List.getElem?_eq_some_iff.1 hq
  rw [List.pairwise_iff_getElem] at hsort
  rcases Nat.lt_trichotomy p q with hpq | rfl | hpq
  · have := hsort p q h1 h2 hpq; omega
  · omega
  · have := hsort q p h2 h1 hpq; omega

/-- Nested from panel to panel: nested. -/
theorem nested_of_steps {sst : Table} {ss : List Stack} {k : Nat}
    (h : ∀ (p : Nat), p + 1 < k → ∃ row up s t : Stack, sst[p]? = some row ∧ sst[p + 1]? = some up ∧
      (∀ (j : Nat), row[j]? = up[j]? ∨ row[j]? = some (-1)) ∧ ss[p]? = some s ∧ ss[p + 1]? = some t ∧ s.Sublist t)
    (m : Nat) : ∀ (p : Nat) (row up s t : Stack), p + m < k → sst[p]? = some row → sst[p + m]? = some up → ss[p]? = some s →
      ss[p + m]? = some t → (∀ (j : Nat), row[j]? = up[j]? ∨ row[j]? = some (-1)) ∧ s.Sublist t := by
  induction m with
  | zero =>
    intro p row up s t _ h1 h2 h3 h4
    rw [Nat.add_zero, h1] at h2
    rw [Nat.add_zero, h3] at h4
    cases h2
    cases h4
    exact ⟨fun j => Or.inl rfl, List.Sublist.refl _⟩
  | succ m ih =>
    intro p row up s t hk h1 h2 h3 h4
    obtain ⟨row', mid, s', t', g1, g2, g3, g4, g5, g6⟩ := h p (by omega)
    rw [h1] at g1
    rw [h3] at g4
    cases g1
    cases g4
    obtain ⟨k1, k2⟩ := ih (p + 1) mid up t' t (by omega) g2 (by rw [← h2]; congr 1; omega) g5 (by rw [← h4]; congr 1; omega)
    refine ⟨fun j => ?_, g6.trans k2⟩
    rcases g3 j with e | e
    · rw [e]; exact k1 j
    · exact Or.inr e

/-- C62: the result of the optimisation with one layout, unless it is the value 1e10 of a failed repair: each panel has a row
of the stacking sequence table and the laminate made of the plies of this row; the laminate has the number of plies of the
panel, consists of allowed plies and is symmetric for symmetric laminates; a panel is obtained from any panel with at least as
many plies by dropping plies only; panels with the same number of plies have the same laminate. -/
theorem C62_laminates (a : ConsArgs) (P : Problem V) (O : OneSetup) (cs : Int → Nat → ℚ) (plies : List Nat) (w : Nat)
    (M : OneCase a P O cs plies w) (res : OneResult) (h : optimiserOnePdl P O false plies.length w = some (.ok (some res)))
    (ho : res.obj ≠ failObj) :
    res.ss.length = plies.length ∧ res.sst.length = plies.length ∧
    (∀ (i n : Nat), plies[i]? = some n → ∃ row s : Stack, res.sst[i]? = some row ∧ res.ss[i]? = some s ∧ row.length = w ∧
      s = row.filter (fun x => x != -1) ∧ s.length = n ∧ (∀ x ∈ s, x ∈ P.c.angles) ∧ (P.c.sym = true → Spec.Symmetric s)) ∧
    ∀ (i k n m : Nat) (row up s t : Stack), plies[i]? = some n → plies[k]? = some m → n ≤ m → res.sst[i]? = some row →
      res.sst[k]? = some up → res.ss[i]? = some s → res.ss[k]? = some t →
      (∀ (j : Nat), row[j]? = up[j]? ∨ row[j]? = some (-1)) ∧ s.Sublist t ∧ (n = m → row = up ∧ s = t) := by
  obtain ⟨bot, top, ss, r, guide, ssRef, rowRef, d, g1, g2, g3, g4, g5, g6, g7, g8, g9, g10, g11, g12⟩ := one_result M h ho
  obtain ⟨_, e1, e2, _⟩ := finishDesign_ok g12
  obtain ⟨k1, k2, k3, k4, k5⟩ := C61_panels a O.R cs O.ipoOk O.S ss P.pdl guide ssRef rowRef g2 r g5 g6
  rw [← g8] at k1 k4 k5
  rw [← g9] at k2 k4 k5
  obtain ⟨l1, f1⟩ := one_extend M k1 e1
  obtain ⟨l2, f2⟩ := one_extend M k2 e2
  refine ⟨l1, l2, fun i n hi => ?_, fun i k n m row up s t hi hk hnm r1 r2 s1 s2 => ?_⟩
  · obtain ⟨p, hp⟩ := one_panel M hi
    obtain ⟨row, s, q1, q2, q3, q4, q5, q6⟩ := k4 p n hp
    refine ⟨row, s, by rw [f2 i n p hi hp, q1], by rw [f1 i n p hi hp, q2], by rw [q3, g1], q4, q5, ?_, fun hsym =>
      (q6 (by rw [M.sameR]; exact hsym)).2⟩
    have hlt := (List.getElem?_eq_some_iff.1 hp).1
    by_cases hpr : p = O.S.r.indRef
    · subst hpr
      obtain ⟨_, _, sst1, ss1, sst2, lps2, ss2, lps3, w1, _⟩ := mp_success g5 g6
      obtain ⟨_, ref, _, _, _, w2, w3, _⟩ := mp_start g2 w1
      obtain ⟨sst1', ss1', ref', u1, u2, u3⟩ := k3
      rw [w1] at u1
      cases u1
      rw [w2] at u2
      cases u2
      rw [← g8, q2] at u3
      cases u3
      rw [M.sameR] at w3
      exact w3
    · obtain ⟨s', ref, u1, _, u3, _⟩ := C61_other_panels a O.R cs O.ipoOk O.S ss P.pdl guide ssRef rowRef g2 r g5 g6
        (fun hc => by
          rw [M.sameR] at hc ⊢
          exact ⟨(M.cov hc).1 _ g4, (M.cov hc).2 _ g3⟩) p hlt hpr
      rw [← g8, q2] at u1
      cases u1
      rw [M.sameR] at u3
      exact u3
  · obtain ⟨p, hp⟩ := one_panel M hi
    obtain ⟨q, hq⟩ := one_panel M hk
    have hpq := (one_sorted M hp hq).1 hnm
    have hqlt := (List.getElem?_eq_some_iff.1 hq).1
    rw [f2 i n p hi hp] at r1
    rw [f2 k m q hk hq] at r2
    rw [f1 i n p hi hp] at s1
    rw [f1 k m q hk hq] at s2
    have e : q = p + (q - p) := by omega
    rw [e] at r2 s2
    obtain ⟨u1, u2⟩ := nested_of_steps k5 (q - p) p row up s t (by omega) r1 r2 s1 s2
    refine ⟨u1, u2, fun hnm' => ?_⟩
    have := (one_sorted M hq hp).1 (by omega)
    have e' : q - p = 0 := by omega
    rw [e', Nat.add_zero, r1] at r2
    rw [e', Nat.add_zero, s1] at s2
    exact ⟨Option.some.inj r2, Option.some.inj s2⟩

/-- C62: the rules met by the laminates of the result.  A panel with as many plies as the reference panel meets all the
lay-up rules that are switched on (the disorientation rule only without damage tolerance rule 1: it is not tested
otherwise). -/
theorem C62_reference_rules (a : ConsArgs) (P : Problem V) (O : OneSetup) (cs : Int → Nat → ℚ) (plies : List Nat) (w : Nat)
    (M : OneCase a P O cs plies w)
    (res : OneResult) (h : optimiserOnePdl P O false plies.length w = some (.ok (some res))) (ho : res.obj ≠ failObj)
    (i n : Nat) (hi : plies[i]? = some n) (hn : O.S.r.nPlies[O.S.r.indRef]? = some n) :
    ∃ s, res.ss[i]? = some s ∧
      (P.c.damTol = true → (P.c.damTolAttr = .rule 1 ∧ Spec.DamTol1 s) ∨
        (P.c.damTolAttr = .rule 2 ∧ Spec.DamTol2 s) ∨ (P.c.damTolAttr = .rule 3 ∧ Spec.DamTol3 s)) ∧
      (P.c.bal = true → Spec.Balanced s) ∧
      (P.c.diso = true → ¬ (P.c.damTol = true ∧ P.c.damTolAttr = .rule 1) → Spec.PairsWithin P.c.deltaAngle s (if P.c.damTol then 1 else 0)
        (if P.c.damTol then s.length - 2 else s.length)) ∧
      (P.c.contig = true → Spec.ContigOK P.c.nContig s) ∧
      (P.c.rule10 = true → Spec.MeetsShares P.c.shares (1 / 10 ^ 15) (s.count 0) (s.count 90)
        (s.count 45) (s.count (-45)) s.length) ∧
      (P.c.rule10 = true → P.c.rule10Abdalla = true → O.R.dist (Spec.inPlane cs s.length s) ≤ 1 / 10 ^ 10) := by
  obtain ⟨bot, top, ss, r, guide, ssRef, rowRef, d, g1, g2, g3, g4, g5, g6, g7, g8, g9, g10, g11, g12⟩ := one_result M h ho
  obtain ⟨_, e1, _⟩ := finishDesign_ok g12
  obtain ⟨k1, _⟩ := C61_panels a O.R cs O.ipoOk O.S ss P.pdl guide ssRef rowRef g2 r g5 g6
  rw [← g8] at k1
  obtain ⟨_, f1⟩ := one_extend M k1 e1
  obtain ⟨s, u1, _, u2⟩ := C61_reference_rules a O.R cs O.ipoOk O.S ss P.pdl guide ssRef rowRef g2
    r g5 g6
  rw [M.sameR] at u2
  exact ⟨s, by rw [f1 i n _ hi hn, g8, u1], u2⟩

/-- C62: the other panels keep the covering plies of the reference panel, meet the contiguity rule and the 10% rule in its
lamination parameter variant, and the disorientation rule if they are thicker than the reference panel. -/
theorem C62_other_rules (a : ConsArgs) (P : Problem V) (O : OneSetup) (cs : Int → Nat → ℚ) (plies : List Nat) (w : Nat)
    (M : OneCase a P O cs plies w) (res : OneResult) (h : optimiserOnePdl P O false plies.length w = some (.ok (some res)))
    (ho : res.obj ≠ failObj) (i k n m : Nat) (hi : plies[i]? = some n) (hk : plies[k]? = some m)
    (hm : O.S.r.nPlies[O.S.r.indRef]? = some m) (hnm : n ≠ m) :
    ∃ s ref : Stack, res.ss[i]? = some s ∧ res.ss[k]? = some ref ∧
      (P.c.covering = true → s.take P.c.nCovering = ref.take P.c.nCovering ∧
        s.reverse.take P.c.nCovering = ref.reverse.take P.c.nCovering) ∧
      (P.c.contig = true → Spec.ContigOK P.c.nContig
        (if P.c.damTol = true ∧ P.c.damTolAttr.twoPlies = true then (s.drop 1).dropLast else s)) ∧
      (m < n → P.c.diso = true → Spec.DisoOK P.c.deltaAngle
        (if P.c.damTol = true ∧ P.c.damTolAttr.twoPlies = true then (s.drop 1).dropLast else s)) ∧
      (P.c.rule10 = true → P.c.rule10Abdalla = true → O.S.dist (O.S.lampam s) = 0) := by
  obtain ⟨bot, top, ss, r, guide, ssRef, rowRef, d, g1, g2, g3, g4, g5, g6, g7, g8, g9, g10, g11, g12⟩ := one_result M h ho
  obtain ⟨_, e1, _⟩ := finishDesign_ok g12
  obtain ⟨k1, _⟩ := C61_panels a O.R cs O.ipoOk O.S ss P.pdl guide ssRef rowRef g2 r g5 g6
  rw [← g8] at k1
  obtain ⟨_, f1⟩ := one_extend M k1 e1
  obtain ⟨p, hp⟩ := one_panel M hi
  have hpr : p ≠ O.S.r.indRef := by
    rintro rfl
    rw [hm] at hp
    exact hnm (Option.some.inj hp).symm
  obtain ⟨s, ref, u1, u2, _, u4, u5, u6, u7⟩ := C61_other_panels a O.R cs O.ipoOk O.S ss P.pdl guide ssRef rowRef g2 r g5 g6
    (fun hc => by
      rw [M.sameR] at hc ⊢
      exact ⟨(M.cov hc).1 _ g4, (M.cov hc).2 _ g3⟩) p (List.getElem?_eq_some_iff.1 hp).1 hpr
  rw [M.sameR] at u4 u5 u6 u7
  refine ⟨s, ref, by rw [f1 i n p hi hp, g8, u1], by rw [f1 k m _ hk hm, g8, u2], u4, u5, fun hlt => u6 ?_, u7⟩
  have := one_sorted M hp hm
  omega

/-- C62: with the balance rule each laminate of the result is balanced, or lacks one ply (thinner than the reference panel)
or has one in excess (thicker), on each side of the mid-plane for symmetric laminates. -/
theorem C62_balance (a : ConsArgs) (P : Problem V) (O : OneSetup) (cs : Int → Nat → ℚ) (plies : List Nat) (w : Nat)
    (M : OneCase a P O cs plies w) (res : OneResult) (h : optimiserOnePdl P O false plies.length w = some (.ok (some res)))
    (ho : res.obj ≠ failObj) (hb : P.c.bal = true) (i n m : Nat) (hi : plies[i]? = some n)
    (hm : O.S.r.nPlies[O.S.r.indRef]? = some m) :
    ∃ s, res.ss[i]? = some s ∧ (Spec.Balanced s ∨ n ≠ m ∧ ∃ b : Int, ∀ x : Int, x ≠ 0 → x ≠ 90 → x ≠ -90 →
      (s.count x : Int) - s.count (-x) = (if n < m then -1 else 1) *
        ((if P.c.sym then 2 else 1) * ((if x = b then 1 else 0) - (if x = -b then 1 else 0)))) := by
  obtain ⟨bot, top, ss, r, guide, ssRef, rowRef, d, g1, g2, g3, g4, g5, g6, g7, g8, g9, g10, g11, g12⟩ := one_result M h ho
  obtain ⟨_, e1, _⟩ := finishDesign_ok g12
  obtain ⟨k1, _⟩ := C61_panels a O.R cs O.ipoOk O.S ss P.pdl guide ssRef rowRef g2 r g5 g6
  rw [← g8] at k1
  obtain ⟨_, f1⟩ := one_extend M k1 e1
  obtain ⟨p, hp⟩ := one_panel M hi
  obtain ⟨s, u1, u2⟩ := C61_balance a O.R cs O.ipoOk O.S ss P.pdl guide ssRef rowRef g2 r g5 g6
    (by rw [M.sameR]; exact hb) p (List.getElem?_eq_some_iff.1 hp).1
  refine ⟨s, by rw [f1 i n p hi hp, g8, u1], u2.imp_right (fun ⟨v1, b, v2⟩ => ⟨?_, b, fun x x1 x2 x3 => ?_⟩)⟩
  · rintro rfl
    have h1 := one_sorted M hp hm
    have h2 := one_sorted M hm hp
    omega
  · have h1 := one_sorted M hm hp
    have e : p < O.S.r.indRef ↔ n < m := by omega
    rw [v2 x x1 x2 x3, M.sameR]
    simp only [e]

/-- C62: the value returned is the smallest one of the designs evaluated, one for each node left by the search. -/
theorem C62_minimal (P : Problem V) (O : OneSetup) (nPanels w : Nat) (res : OneResult)
    (h : optimiserOnePdl P O false nPanels w = some (.ok (some res))) :
    ∃ (t : Tabs V) (ds : List Design), beamSearch P = .ok t ∧
      List.Forall₂ (fun (x : List Stack × List Stack) (d : Design) => repairNode O P.pdl w x.1 x.2 = some (.ok d))
        (t.bots.zip t.tops) ds ∧ (∃ d ∈ ds, d.obj = res.obj) ∧ ∀ d ∈ ds, res.obj ≤ d.obj := by
  have h' : optimiserOnePdl P O false (List.replicate nPanels 0).length w = some (.ok (some res)) := by
    rw [List.length_replicate]; exact h
  obtain ⟨t, ds, d, h1, h2, h3, h4, h5⟩ := one_selected h'
  obtain ⟨e, _⟩ := finishDesign_ok h5
  exact ⟨t, ds, h1, repairNodes_ok h2, ⟨d, h3, e.symm⟩, fun d' hd' => by rw [e]; exact h4 d' hd'⟩

/-- C62 (violated): the ply drop layout returned is always the one given, whatever the repair did to the drops
(C61: they may be elsewhere in the table returned with it). -/
theorem C62_stale_layout_violation (a : ConsArgs) (P : Problem V) (O : OneSetup) (cs : Int → Nat → ℚ) (plies : List Nat)
    (w : Nat) (M : OneCase a P O cs plies w) (res : OneResult)
    (h : optimiserOnePdl P O false plies.length w = some (.ok (some res))) (ho : res.obj ≠ failObj) (i n p : Nat)
    (hi : plies[i]? = some n) (hp : O.S.r.nPlies[p]? = some n) : res.pdl[i]? = P.pdl[p]? := by
  obtain ⟨bot, top, ss, r, guide, ssRef, rowRef, d, g1, g2, g3, g4, g5, g6, g7, g8, g9, g10, g11, g12⟩ := one_result M h ho
  obtain ⟨_, _, _, e3, _⟩ := finishDesign_ok g12
  rw [g10] at e3
  exact (one_extend M M.rows e3).2 i n p hi hp

/-! ### The values returned -/

theorem mapM_at {α β : Type} {f : α → Py β} {xs : List α} {ys : List β} (h : xs.mapM f = .ok ys) {i : Nat} {x : α}
    (hx : xs[i]? = some x) : ∃ y, ys[i]? = some y ∧ f x = .ok y := by
  have h1 := mapM_inv _ _ _ h
  obtain ⟨hlt, e⟩ := List.getElem?_eq_some_iff.1 hx
  have hl := h1.length_eq
  have h2 := List.Forall₂.get h1 (i := i) hlt (by omega)
  simp only [List.get_eq_getElem, e] at h2
  exact ⟨_, List.getElem?_eq_getElem (by omega), h2⟩

theorem mapM_len {α β : Type} {f : α → Py β} {xs : List α} {ys : List β} (h : xs.mapM f = .ok ys) : ys.length = xs.length :=
  (mapM_inv _ _ _ h).length_eq.symm

/-- Violations per ply. -/
theorem normPenalty_ok {on : Bool} {viol plies : List Nat} {r : List ℚ} (h : normPenalty on viol plies = .ok r)
    (hl : viol.length = plies.length) : r.length = plies.length ∧ ∀ (p v n : Nat), viol[p]? = some v → plies[p]? = some n →
      r[p]? = some (if on then (v : ℚ) / n else 0) := by
  unfold normPenalty at h
  by_cases hc : on = true ∧ viol.any (fun (v : Nat) => v != 0) = true
  · rw [if_pos hc, if_pos hl] at h
    have h := Except.ok.inj h
    subst h
    refine ⟨by simp [hl], fun p v n h1 h2 => ?_⟩
    rw [List.getElem?_zipWith, h1, h2]
    simp [hc.1]
  · rw [if_neg hc] at h
    have h := Except.ok.inj h
    subst h
    refine ⟨by simp, fun p v n h1 h2 => ?_⟩
    have hp := (List.getElem?_eq_some_iff.1 h2).1
    rw [List.getElem?_replicate, if_pos hp]
    cases on
    · simp
    · have : ¬ viol.any (fun (v : Nat) => v != 0) = true := fun hh => hc ⟨rfl, hh⟩
      rw [List.any_eq_true] at this
      push Not at this
      have := this v (List.mem_of_getElem? h1)
      simp only [bne_iff_ne, ne_eq, Decidable.not_not] at this
      simp [this]

/-- The values attached to the design returned. -/
theorem one_values {a : ConsArgs} {P : Problem V} {O : OneSetup} {cs : Int → Nat → ℚ} {plies : List Nat} {w : Nat}
    (M : OneCase a P O cs plies w) (hT : O.S.targets.length = O.S.r.nPlies.length) {res : OneResult}
    (h : optimiserOnePdl P O false plies.length w = some (.ok (some res))) (ho : res.obj ≠ failObj) :
    ∃ (d : Design) (pen : Penalties), d.ss.length = O.S.r.nPlies.length ∧ extendData O.S.r plies.length d.ss = .ok res.ss ∧
      d.lampams = d.ss.map O.S.lampam ∧ extendData O.S.r plies.length d.lampams = .ok res.lampams ∧
      calcPlyCounts O.S.c O.S.r.nPlies.length d.ss = .ok d.counts ∧ d.counts.length = O.S.r.nPlies.length ∧
      extendData O.S.r plies.length d.counts = .ok res.counts ∧
      objEachPanel O.S.targets O.weights d.lampams = .ok d.objsNo ∧ d.objsNo.length = O.S.r.nPlies.length ∧
      extendData O.S.r plies.length d.objsNo = .ok res.objsNo ∧
      calcPenalties O d.ss d.lampams d.counts = .ok pen ∧ pen.nDiso.length = O.S.r.nPlies.length ∧
      pen.nContig.length = O.S.r.nPlies.length ∧ pen.diso.length = O.S.r.nPlies.length ∧
      pen.contig.length = O.S.r.nPlies.length ∧ pen.ten.length = O.S.r.nPlies.length ∧
      extendData O.S.r plies.length pen.nDiso = .ok res.nDiso ∧ extendData O.S.r plies.length pen.nContig = .ok res.nContig ∧
      extendData O.S.r plies.length pen.diso = .ok res.penDiso ∧ extendData O.S.r plies.length pen.contig = .ok res.penContig ∧
      extendData O.S.r plies.length pen.ten = .ok res.pen10 ∧ objOfPenalties O d.objsNo pen = .ok res.obj := by
  obtain ⟨bot, top, ss, r, guide, ssRef, rowRef, d, g1, g2, g3, g4, g5, g6, g7, g8, g9, g10, g11, g12⟩ := one_result M h ho
  obtain ⟨e0, e1, e2, e3, e4, e5, e6, pen, q1, q2, q3, q4, q5, q6⟩ := finishDesign_ok g12
  obtain ⟨k1, _⟩ := C61_panels a O.R cs O.ipoOk O.S ss P.pdl guide ssRef rowRef g2 r g5 g6
  rw [← g8] at k1
  obtain ⟨_, r', pen', _, _, _, m4, _, _, m7, m8, m9, m10, m11⟩ := repairNode_ok g11
  rw [← m4] at m7
  rw [q1] at m9
  have m9 := Except.ok.inj m9
  subst m9
  have hlc := mapM_len m8
  rw [List.length_range] at hlc
  unfold designObjs at m10
  rw [if_pos g7] at m10
  have hlo := mapM_len m10
  rw [List.length_range, hT] at hlo
  have hp := q1
  unfold calcPenalties at hp
  obtain ⟨nd, h1, hp⟩ := bind_ok.1 hp
  obtain ⟨pd, h2, hp⟩ := bind_ok.1 hp
  obtain ⟨nc, h3, hp⟩ := bind_ok.1 hp
  obtain ⟨pc, h4, hp⟩ := bind_ok.1 hp
  obtain ⟨pt, h5, hp⟩ := bind_ok.1 hp
  have hp := Except.ok.inj hp
  have hl1 : nd.length = O.S.r.nPlies.length := by rw [← k1]; exact mapM_len h1
  have hl3 : nc.length = O.S.r.nPlies.length := by rw [← k1]; exact mapM_len h3
  have hl5 : pt.length = O.S.r.nPlies.length := by
    unfold penalty10Mp at h5
    split at h5
    · rw [← Except.ok.inj h5, m7, List.length_map, List.length_map, k1]
    · rw [mapM_len h5, hlc]
  have hobj : objOfPenalties O d.objsNo pen = .ok res.obj := by
    unfold designObj at m11
    split at m11
    · rw [e0]; exact m11
    · rw [e0] at ho
      exact absurd (Except.ok.inj m11).symm ho
  subst hp
  exact ⟨d, _, k1, e1, m7, e4, m8, hlc, e5, m10, hlo, e6, q1, hl1, hl3, (normPenalty_ok h2 hl1).1, (normPenalty_ok h4 hl3).1,
    hl5, q2, q3, q4, q5, q6, hobj⟩

/-- C62: the lamination parameters, ply counts and objectives without penalties that are returned are those of the laminates
returned with them. -/
theorem C62_reported_values (a : ConsArgs) (P : Problem V) (O : OneSetup) (cs : Int → Nat → ℚ) (plies : List Nat) (w : Nat)
    (M : OneCase a P O cs plies w) (hT : O.S.targets.length = O.S.r.nPlies.length) (res : OneResult)
    (h : optimiserOnePdl P O false plies.length w = some (.ok (some res))) (ho : res.obj ≠ failObj) (i n p : Nat)
    (hi : plies[i]? = some n) (hp : O.S.r.nPlies[p]? = some n) :
    ∃ s, res.ss[i]? = some s ∧ res.lampams[i]? = some (O.S.lampam s) ∧
      (∃ cnt, res.counts[i]? = some cnt ∧ cnt.length = P.c.angles.length ∧
        ∀ (j : Nat) (x : Int), P.c.angles[j]? = some x → cnt[j]? = some (s.count x : ℚ)) ∧
      ∃ t v, O.S.targets[p]? = some t ∧ O.weights[p]? = some v ∧
        res.objsNo[i]? = some (Spec.sqDist v (O.S.lampam s) t) := by
  obtain ⟨d, pen, k1, e1, e2, e3, e4, l4, e5, e6, l6, e7, _⟩ := one_values M hT h ho
  obtain ⟨_, _, hs, _⟩ := C62_laminates a P O cs plies w M res h ho
  obtain ⟨row, s, _, s1, _, _, _, s3, _⟩ := hs i n hi
  have hplt := (List.getElem?_eq_some_iff.1 hp).1
  have hds : d.ss[p]? = some s := by rw [← (one_extend M k1 e1).2 i n p hi hp, s1]
  have hdl : d.lampams[p]? = some (O.S.lampam s) := by rw [e2, List.getElem?_map, hds]; rfl
  refine ⟨s, s1, ?_, ?_, ?_⟩
  · rw [(one_extend M (by rw [e2, List.length_map, k1]) e3).2 i n p hi hp, hdl]
  · obtain ⟨y, y1, y2⟩ := mapM_at e4 (i := p) (x := p) (by rw [List.getElem?_range hplt])
    obtain ⟨s', y3, y4⟩ := bind_ok.1 y2
    rw [pyGet_eq_ok, hds] at y3
    cases y3
    obtain ⟨cnt, c1, c2, _, c3⟩ := plyCounts_spec a P.c M.cons s s3
    rw [M.sameS, c1] at y4
    cases y4
    exact ⟨_, by rw [(one_extend M l4 e5).2 i n p hi hp, y1], c2, fun j x hj => (c3 j x hj).2⟩
  · obtain ⟨y, y1, y2⟩ := mapM_at e6 (i := p) (x := p) (by rw [List.getElem?_range (by omega)])
    obtain ⟨l', y3, y2⟩ := bind_ok.1 y2
    obtain ⟨t, y4, y2⟩ := bind_ok.1 y2
    obtain ⟨v, y5, y2⟩ := bind_ok.1 y2
    rw [pyGet_eq_ok] at y3 y4 y5
    rw [hdl] at y3
    cases y3
    refine ⟨t, v, y4, y5, ?_⟩
    rw [(one_extend M l6 e7).2 i n p hi hp, y1, C23_one_panel _ _ _ _ y2]

/-- C62: the violations and penalties that are returned are those of the laminates returned with them: violations of the
disorientation and contiguity rules, divided by the number of plies; shortfall with respect to the 10% rule, or distance to
the feasible region of its lamination parameter variant. -/
theorem C62_reported_penalties (a : ConsArgs) (P : Problem V) (O : OneSetup) (cs : Int → Nat → ℚ) (plies : List Nat) (w : Nat)
    (M : OneCase a P O cs plies w) (hT : O.S.targets.length = O.S.r.nPlies.length) (res : OneResult)
    (h : optimiserOnePdl P O false plies.length w = some (.ok (some res))) (ho : res.obj ≠ failObj) (i n : Nat)
    (hi : plies[i]? = some n) (hn : 3 ≤ n) :
    ∃ s, res.ss[i]? = some s ∧
      (∃ v : Nat, v = Spec.disoViolations P.c.deltaAngle
          (if P.c.damTol = true ∧ P.c.damTolAttr.twoPlies = true then (s.drop 1).dropLast else s) ∧
        res.nDiso[i]? = some v ∧ res.penDiso[i]? = some (if P.c.diso then (v : ℚ) / n else 0)) ∧
      (P.c.contig = false → res.penContig[i]? = some 0) ∧
      (P.c.contig = true → ∃ v : Nat, v = Spec.contigViolations P.c.nContig
          (if P.c.damTol = true ∧ P.c.damTolAttr.twoPlies = true then (s.drop 1).dropLast else s) ∧
        res.nContig[i]? = some v ∧ res.penContig[i]? = some ((v : ℚ) / n)) ∧
      (P.c.rule10 = true → P.c.rule10Abdalla = true → res.pen10[i]? = some (O.S.dist (O.S.lampam s))) ∧
      (P.c.rule10 = false → res.pen10[i]? = some 0) ∧
      (P.c.rule10 = true → P.c.rule10Abdalla = false → 0 < P.c.pTot → ∃ v : ℚ, res.pen10[i]? = some v ∧ 0 ≤ v ∧
        calcPenalty10Ss P.c s = .ok v ∧
        (v = 0 ↔ Spec.MeetsShares P.c.shares 0 (s.count 0) (s.count 90) (s.count 45) (s.count (-45)) s.length)) := by
  obtain ⟨p, hp⟩ := one_panel M hi
  obtain ⟨d, pen, k1, e1, e2, e3, e4, l4, e5, e6, l6, e7, e8, l8, l9, l10, l11, l12, e9, e10, e11, e12, e13, _⟩ :=
    one_values M hT h ho
  obtain ⟨_, _, hs, _⟩ := C62_laminates a P O cs plies w M res h ho
  obtain ⟨row, s, _, s1, _, _, hsn, s3, _⟩ := hs i n hi
  have hplt := (List.getElem?_eq_some_iff.1 hp).1
  have hds : d.ss[p]? = some s := by rw [← (one_extend M k1 e1).2 i n p hi hp, s1]
  have hdl : d.lampams[p]? = some (O.S.lampam s) := by rw [e2, List.getElem?_map, hds]; rfl
  have hrange : ∀ x ∈ s, -90 ≤ x ∧ x ≤ 90 := by
    intro x hx
    have := (C14_angles a P.c M.cons).2.2.2.2.1 x (s3 x hx)
    omega
  have hne : s ≠ [] := by rintro rfl; simp at hsn; omega
  unfold calcPenalties at e8
  obtain ⟨nd, h1, e8⟩ := bind_ok.1 e8
  obtain ⟨pd, h2, e8⟩ := bind_ok.1 e8
  obtain ⟨nc, h3, e8⟩ := bind_ok.1 e8
  obtain ⟨pc, h4, e8⟩ := bind_ok.1 e8
  obtain ⟨pt, h5, e8⟩ := bind_ok.1 e8
  have e8 := Except.ok.inj e8
  subst e8
  dsimp only at *
  rw [M.sameS] at h1 h2 h3 h4 h5
  obtain ⟨v1, y1, y2⟩ := mapM_at h1 hds
  obtain ⟨v2, z1, z2⟩ := mapM_at h3 hds
  rw [C03_penalty_exact s _ _ _ hrange (by split <;> omega)] at y2
  have y2 := Except.ok.inj y2
  refine ⟨s, s1, ⟨v1, y2.symm, ?_, ?_⟩, fun hc => ?_, fun hc => ?_, fun h10 hab => ?_, fun h10 => ?_, fun h10 hab htot => ?_⟩
  · rw [(one_extend M l8 e9).2 i n p hi hp, y1]
  · rw [(one_extend M l10 e11).2 i n p hi hp, (normPenalty_ok h2 l8).2 p v1 n y1 hp]
  · rw [(one_extend M l11 e12).2 i n p hi hp, (normPenalty_ok h4 l9).2 p v2 n z1 hp, hc]
    simp
  · have hc26 : 2 ≤ P.c.nContig ∧ P.c.nContig ≤ 6 := by
      obtain ⟨bot, top, ss, r, guide, ssRef, rowRef, d', g1, g2, _⟩ := one_result M h ho
      have := g2.repair.contig (by rw [M.sameR]; exact hc)
      rw [M.sameR] at this
      exact ⟨this.1, this.2.1⟩
    rw [C05_penalty_exact s _ _ _ hc26.1 hc26.2] at z2
    have z2 := Except.ok.inj z2
    refine ⟨v2, z2.symm, by rw [(one_extend M l9 e10).2 i n p hi hp, z1], ?_⟩
    rw [(one_extend M l11 e12).2 i n p hi hp, (normPenalty_ok h4 l9).2 p v2 n z1 hp, hc]
    simp
  · unfold penalty10Mp at h5
    rw [if_pos ⟨h10, hab⟩] at h5
    rw [(one_extend M l12 e13).2 i n p hi hp, ← Except.ok.inj h5, List.getElem?_map, hdl]
    rfl
  all_goals
    unfold penalty10Mp at h5
    rw [if_neg (fun hh => by simp_all)] at h5
    obtain ⟨cnt, c1, c2⟩ := mapM_at e4 (i := p) (x := p) (by rw [List.getElem?_range hplt])
    obtain ⟨s', c3, c4⟩ := bind_ok.1 c2
    rw [pyGet_eq_ok, hds] at c3
    cases c3
    rw [M.sameS] at c4
    obtain ⟨v, v1', v2'⟩ := mapM_at h5 c1
  · have hoff := (C09_penalty_off a P.c M.cons (Or.inl h10) s cnt 1).2
    obtain ⟨_, _, _, _, _, _, hh, _⟩ := C14_percentages a P.c M.cons
    obtain ⟨_, _, _, _, _, ht⟩ := hh (Or.inl h10)
    unfold calcPenalty10PcRow at v2'
    rw [if_neg (by rw [ht]; exact lt_irrefl _)] at v2'
    rw [(one_extend M l12 e13).2 i n p hi hp, v1', ← Except.ok.inj v2']
  · have ha : a.rule10 = true := by
      obtain ⟨_, _, _, _, _, _, _, _, _, _, _, e⟩ := mkConstraints_inv a P.c M.cons
      rw [e] at h10
      exact h10
    obtain ⟨cnt', q, w1, w2, _, w4⟩ := C09_penalty_pc a P.c M.cons ha s s3 hne 1
    rw [c4] at w1
    cases w1
    rw [v2', one_mul] at w4
    cases w4
    obtain ⟨q, u1, u2, u3⟩ := C09_penalty_ss P.c htot s hne
    rw [w2] at u1
    cases u1
    exact ⟨v, by rw [(one_extend M l12 e13).2 i n p hi hp, v1'], u2, w2, u3⟩

/-- C62: the objective that is returned is the sum over the panels of the strip of the objectives returned, weighted and
multiplied by `1 + coefficient * penalty` for the penalties returned for disorientation, contiguity and the 10% rule
(`rep p` is any panel of the structure with as many plies as the panel `p` of the strip). -/
theorem C62_reported_objective (a : ConsArgs) (P : Problem V) (O : OneSetup) (cs : Int → Nat → ℚ) (plies : List Nat) (w : Nat)
    (M : OneCase a P O cs plies w) (hT : O.S.targets.length = O.S.r.nPlies.length)
    (hW : O.S.panelWeights.length = O.S.r.nPlies.length) (res : OneResult)
    (h : optimiserOnePdl P O false plies.length w = some (.ok (some res))) (ho : res.obj ≠ failObj) (rep : Nat → Nat)
    (hrep : ∀ (p : Nat), p < O.S.r.nPlies.length → plies[rep p]? = O.S.r.nPlies[p]?) :
    res.obj = ∑ p ∈ Finset.range O.S.r.nPlies.length, Spec.penalised (O.S.panelWeights.getD p 0) (res.objsNo.getD (rep p) 0)
      [(O.coeffs.cDiso, res.penDiso.getD (rep p) 0), (O.coeffs.cContig, res.penContig.getD (rep p) 0),
       (O.coeffs.c10, res.pen10.getD (rep p) 0)] := by
  obtain ⟨d, pen, k1, e1, e2, e3, e4, l4, e5, e6, l6, e7, e8, l8, l9, l10, l11, l12, e9, e10, e11, e12, e13, e14⟩ :=
    one_values M hT h ho
  rw [C23_multi_panel _ _ _ _ e14, hW]
  apply Finset.sum_congr rfl
  intro p hp
  rw [Finset.mem_range] at hp
  have hp' : O.S.r.nPlies[p]? = some O.S.r.nPlies[p] := List.getElem?_eq_getElem hp
  have hi := hrep p hp
  rw [hp'] at hi
  simp only [List.map_cons, List.map_nil, Pen.at, List.getD_eq_getElem?_getD,
    (one_extend M l6 e7).2 _ _ p hi hp', (one_extend M l10 e11).2 _ _ p hi hp', (one_extend M l11 e12).2 _ _ p hi hp',
    (one_extend M l12 e13).2 _ _ p hi hp', List.getElem?_replicate, if_pos hp, Option.getD_some]
  simp [Spec.penalised]

/-! ### A design is returned -/

theorem repairNodes_of {O : OneSetup} {pdl : Table} {w : Nat} {xs : List (List Stack × List Stack)} {ds : List Design}
    (h : List.Forall₂ (fun (x : List Stack × List Stack) (d : Design) => repairNode O pdl w x.1 x.2 = some (.ok d)) xs ds) :
    repairNodes O pdl w xs = some (.ok ds) := by
  induction h with
  | nil => rfl
  | cons h1 _ ih =>
    unfold repairNodes
    rw [h1]
    dsimp only
    rw [ih]

theorem mapM_of_ok {α β : Type} {f : α → Py β} {xs : List α} (h : ∀ x ∈ xs, ∃ y, f x = .ok y) : ∃ ys, xs.mapM f = .ok ys := by
  induction xs with
  | nil => exact ⟨[], rfl⟩
  | cons x xs ih =>
    obtain ⟨y, hy⟩ := h x List.mem_cons_self
    obtain ⟨ys, hys⟩ := ih (fun z hz => h z (List.mem_cons_of_mem _ hz))
    exact ⟨y :: ys, by rw [List.mapM_cons, hy]; show (do let ys ← xs.mapM f; return y :: ys) = _; rw [hys]; rfl⟩

theorem orthoPenalty_of {k : Nat} {l : List ℚ} (h : k + 1 < l.length) : ∃ y, orthoPenalty k l = .ok y := by
  unfold orthoPenalty
  have h1 : pyGet l k = .ok (l[k]'(by omega)) := by rw [pyGet_eq_ok]; exact List.getElem?_eq_getElem _
  have h2 : pyGet l (k + 1) = .ok (l[k + 1]'(by omega)) := by rw [pyGet_eq_ok]; exact List.getElem?_eq_getElem _
  rw [h1]
  show ∃ y, (do let y ← pyGet l (k + 1); return (|l[k]'(by omega)| + |y|) / 2) = .ok y
  rw [h2]
  exact ⟨_, rfl⟩

theorem checkObjs_self (l : List ℚ) : checkObjs l l = .ok () := by
  unfold checkObjs requirePy
  rw [if_pos]
  rw [Bool.not_eq_true', List.any_eq_false]
  intro b hb
  rw [List.zipWith_self, List.mem_map] at hb
  obtain ⟨x, _, rfl⟩ := hb
  simp

/-- The final checks accept a design that was repaired with success. -/
theorem finishDesign_of {a : ConsArgs} {P : Problem V} {O : OneSetup} {cs : Int → Nat → ℚ} {plies : List Nat} {w : Nat}
    (M : OneCase a P O cs plies w) (hT : O.S.targets.length = O.S.r.nPlies.length)
    (hl : ∀ s : Stack, 4 ≤ (O.S.lampam s).length ∧ (P.c.oopo = true → 12 ≤ (O.S.lampam s).length))
    (hs : ∃ q, stripSpacing O.S.c O.S.r (P.pdl.map some) = .ok q)
    {t : Tabs V} (ht : beamSearch P = .ok t) {ds : List Design}
    (hd : repairNodes O P.pdl w (t.bots.zip t.tops) = some (.ok ds)) {d : Design} (h : d ∈ ds) (ho : d.obj ≠ failObj) :
    ∃ res, finishDesign O plies.length d.ss d.sst d.pdl d.lampams d.counts d.objsNo d.obj = .ok res ∧ res.obj = d.obj := by
  obtain ⟨bot, top, ss, r, guide, ssRef, rowRef, g1, g2, g3, g4, g5, g6, g7, g8, g9, g10⟩ := one_designs M ht hd h
  have hne : O.S.r.nPlies ≠ [] := by
    have := M.full
    intro e
    rw [e] at this
    simp at this
  have hsuc := success_of_obj hne g10 ho
  have hrs : r.success = true := by rw [← g6]; exact hsuc
  have hpdl : d.pdl = P.pdl := by rw [g9]; exact (mp_success g5 hrs).2.1
  obtain ⟨k1, k2, _, k4, _⟩ := C61_panels a O.R cs O.ipoOk O.S ss P.pdl guide ssRef rowRef g2 r g5 hrs
  rw [← g7] at k1 k4
  rw [← g8] at k2
  obtain ⟨_, r', pen, _, _, _, m4, _, _, m7, m8, m9, m10, m11⟩ := repairNode_ok g10
  rw [← m4] at m7
  unfold designObjs at m10
  rw [if_pos hsuc] at m10
  have hlo := mapM_len m10
  rw [List.length_range, hT] at hlo
  have hobj : objOfPenalties O d.objsNo pen = .ok d.obj := by
    unfold designObj at m11
    split at m11
    · exact m11
    · exact absurd (Except.ok.inj m11).symm ho
  have hlc := mapM_len m8
  rw [List.length_range] at hlc
  have hll : d.lampams.length = O.S.r.nPlies.length := by rw [m7, List.length_map, k1]
  have hmem : ∀ l ∈ d.lampams, 4 ≤ l.length ∧ (O.S.c.oopo = true → 12 ≤ l.length) := by
    intro l hlm
    rw [m7, List.mem_map] at hlm
    obtain ⟨s, _, rfl⟩ := hlm
    rw [M.sameS]; exact hl s
  obtain ⟨bal, hbal⟩ := mapM_of_ok (f := orthoPenalty 2) (xs := d.lampams) (fun l hlm => orthoPenalty_of (by have := hmem l hlm; omega))
  have hoo : ∃ oopo, oopoPenalties O.S.c d.lampams = .ok oopo ∧ oopo.length = d.lampams.length := by
    unfold oopoPenalties
    split
    · rename_i hoc
      obtain ⟨ys, hys⟩ := mapM_of_ok (f := orthoPenalty 10) (xs := d.lampams) (fun l hlm => orthoPenalty_of (by have := (hmem l hlm).2 hoc; omega))
      exact ⟨ys, hys, mapM_len hys⟩
    · exact ⟨_, rfl, by simp⟩
  obtain ⟨oopo, hoo, hool⟩ := hoo
  obtain ⟨q, hq⟩ := hs
  have hcc : checkCounts O d.ss = .ok () := by
    unfold checkCounts requirePy
    rw [if_pos]
    rw [List.all_eq_true]
    intro i hi
    rw [List.mem_range] at hi
    obtain ⟨_, s, _, q2, _, _, q5, _⟩ := k4 i _ (List.getElem?_eq_getElem hi)
    simp [List.getD_eq_getElem?_getD, q2, List.getElem?_eq_getElem hi, q5]
  have hcl : checkLampams d.lampams (d.ss.map O.S.lampam) = .ok () := by
    rw [← m7]
    unfold checkLampams requirePy
    rw [if_pos]
    rw [Bool.not_eq_true', List.all_eq_false]
    have hne2 : d.lampams ≠ [] := by
      intro e
      rw [e] at hll
      exact hne (List.length_eq_zero_iff.1 hll.symm)
    obtain ⟨l, hlm⟩ := List.exists_mem_of_ne_nil _ hne2
    rw [List.zipWith_self]
    refine ⟨_, List.mem_map.2 ⟨l, hlm, rfl⟩, ?_⟩
    rw [List.zipWith_self, List.all_map]
    have := hmem l hlm
    intro hall
    rw [List.all_eq_true] at hall
    have := hall (l[0]'(by omega)) (List.getElem_mem _)
    simp at this
  have hpl : pen.diso.length = O.S.r.nPlies.length ∧ pen.contig.length = O.S.r.nPlies.length ∧
      pen.ten.length = O.S.r.nPlies.length ∧ pen.nDiso.length = O.S.r.nPlies.length ∧
      pen.nContig.length = O.S.r.nPlies.length := by
    unfold calcPenalties at m9
    obtain ⟨nd, h1, hp⟩ := bind_ok.1 m9
    obtain ⟨pd, h2, hp⟩ := bind_ok.1 hp
    obtain ⟨nc, h3, hp⟩ := bind_ok.1 hp
    obtain ⟨pc, h4, hp⟩ := bind_ok.1 hp
    obtain ⟨pt, h5, hp⟩ := bind_ok.1 hp
    have hp := Except.ok.inj hp
    have hl1 : nd.length = O.S.r.nPlies.length := by rw [← k1]; exact mapM_len h1
    have hl3 : nc.length = O.S.r.nPlies.length := by rw [← k1]; exact mapM_len h3
    have hl5 : pt.length = O.S.r.nPlies.length := by
      unfold penalty10Mp at h5
      split at h5
      · rw [← Except.ok.inj h5, List.length_map, hll]
      · rw [mapM_len h5, hlc]
    subst hp
    exact ⟨(normPenalty_ok h2 hl1).1, (normPenalty_ok h4 hl3).1, hl5, hl1, hl3⟩
  obtain ⟨pl1, pl2, pl3, pl4, pl5⟩ := hpl
  obtain ⟨nRef, bs, bw, hr⟩ := M.reduced
  have hext : ∀ {α : Type} (data : List α), data.length = O.S.r.nPlies.length → ∃ e, extendData O.S.r plies.length data = .ok e :=
    fun data hdl => (extendData_ok hr data hdl).imp (fun _ hh => hh.1)
  obtain ⟨v1, w1⟩ := hext d.ss k1
  obtain ⟨v2, w2⟩ := hext d.lampams hll
  obtain ⟨v3, w3⟩ := hext d.counts hlc
  obtain ⟨v4, w4⟩ := hext d.objsNo hlo
  obtain ⟨v5, w5⟩ := hext pen.diso pl1
  obtain ⟨v6, w6⟩ := hext pen.contig pl2
  obtain ⟨v7, w7⟩ := hext pen.ten pl3
  obtain ⟨v8, w8⟩ := hext bal (by rw [mapM_len hbal, hll])
  obtain ⟨v9, w9⟩ := hext oopo (by rw [hool, hll])
  obtain ⟨v10, w10⟩ := hext pen.nDiso pl4
  obtain ⟨v11, w11⟩ := hext pen.nContig pl5
  obtain ⟨v12, w12⟩ := hext d.sst k2
  obtain ⟨v13, w13⟩ := hext d.pdl (by rw [hpdl, M.rows])
  rw [← hpdl] at hq
  refine ⟨{ ss := v1, sst := v12, pdl := v13, lampams := v2, counts := v3, objsNo := v4, obj := d.obj,
            nDiso := v10, nContig := v11, penDiso := v5, penContig := v6, pen10 := v7, penBal := v8,
            penOopo := v9, penSpacing := q }, ?_, rfl⟩
  unfold finishDesign extendResults
  simp only [bind_ok]
  exact ⟨_, hcc, _, hcl, _, m10, _, checkObjs_self _, pen, m9, _, hobj, _, checkObjs_self _, _, hbal, _, hoo, _, hq,
    _, w1, _, w2, _, w3, _, w4, _, w5, _, w6, _, w7, _, w8, _, w9, _, w10, _, w11, _, w12, _, w13, rfl⟩

/-- C62: the optimisation with one layout returns a design as soon as the search and the repairs end and one of the designs
has been repaired with success (an objective below 1e10): the final checks never reject it. -/
theorem C62_returns (a : ConsArgs) (P : Problem V) (O : OneSetup) (cs : Int → Nat → ℚ) (plies : List Nat) (w : Nat)
    (M : OneCase a P O cs plies w) (hT : O.S.targets.length = O.S.r.nPlies.length)
    (hl : ∀ s : Stack, 4 ≤ (O.S.lampam s).length ∧ (P.c.oopo = true → 12 ≤ (O.S.lampam s).length))
    (hs : ∃ q, stripSpacing O.S.c O.S.r (P.pdl.map some) = .ok q)
    (t : Tabs V) (ht : beamSearch P = .ok t) (ds : List Design)
    (hd : List.Forall₂ (fun (x : List Stack × List Stack) (d : Design) => repairNode O P.pdl w x.1 x.2 = some (.ok d))
        (t.bots.zip t.tops) ds) (hmin : ∃ d ∈ ds, d.obj < failObj) :
    ∃ res, optimiserOnePdl P O false plies.length w = some (.ok (some res)) ∧ res.obj < failObj := by
  obtain ⟨d0, hd0, hlt⟩ := hmin
  have hd' := repairNodes_of hd
  have hne : ds.map (fun (d : Design) => d.obj) ≠ [] := by
    intro e
    rw [List.map_eq_nil_iff] at e
    subst e
    cases hd0
  obtain ⟨i, s, u, l, c, o, g1, g2, g3, g4, g5, g6, g7⟩ := C55_selected_design false (ds.map (fun (d : Design) => d.ss))
    (ds.map (fun (d : Design) => (d.sst, d.pdl))) (ds.map (fun (d : Design) => (d.lampams, d.objsNo)))
    (ds.map (fun (d : Design) => d.counts)) (ds.map (fun (d : Design) => d.obj)) hne (by simp) (by simp) (by simp) (by simp)
    (by simp)
  rw [List.getElem?_map] at g2 g3 g4 g5 g6
  obtain ⟨d, hdi, _⟩ := Option.map_eq_some_iff.1 g2
  rw [hdi, Option.map_some, Option.some.injEq] at g2 g3 g4 g5 g6
  subst g2 g3 g4 g5 g6
  have hle := g7 _ (List.mem_map.2 ⟨d0, hd0, rfl⟩)
  have hlt' : d.obj < failObj := lt_of_le_of_lt hle hlt
  obtain ⟨res, h1, h2⟩ := finishDesign_of M hT hl hs ht hd' (List.mem_of_getElem? hdi) hlt'.ne
  refine ⟨res, ?_, by rw [h2]; exact hlt'⟩
  unfold optimiserOnePdl
  rw [ht]
  dsimp only
  rw [hd']
  dsimp only
  unfold finishOne
  rw [g1]
  show some (do let r ← finishDesign O plies.length d.ss d.sst d.pdl d.lampams d.counts d.objsNo d.obj; return some r) = _
  rw [h1]
  rfl

/-! ### Examples -/

/-- Optimisations of symmetric laminates that meet the conditions. -/
theorem oneCase_of (a : ConsArgs) (c : Cons) (r : Reduced) (P : Problem V) (O : OneSetup) (plies strip : List Nat) (w k : Nat)
    (nRef : Int) (bs : List (Nat × Nat)) (bw : List ((Nat × Nat) × ℚ)) (hc : mkConstraints a = .ok c) (hP : P.c = c)
    (hR : O.R = ssSetup c false false) (hS : O.S.c = c ∧ O.S.r = r)
    (hobj : ∀ o q, P.objMp o = .ok q → -6666 < q) (hr : mkReduced plies true nRef bs bw = .ok r) (h1 : ContigCons c)
    (h2 : c.angles = [-45, 0, 45, 90]) (h3 : c.sym = true) (h4 : c.covering = false) (h5 : r.nPlies = strip)
    (h6 : strip[r.indRef]? = some k) (hpar : ∀ n ∈ plies, ∀ m ∈ plies, n % 2 = m % 2) (hpan : P.nPanels = strip.length)
    (hrows : P.pdl.length = strip.length) (hwid : ∀ row ∈ P.pdl, row.length = w)
    (hfull : strip[strip.length - 1]? = some w) (hcount : P.pdl.map (fun row => row.countP (fun x => x != -1)) = strip)
    (hsym : ∀ row ∈ P.pdl, row.map (fun x => decide (x = -1)) = row.reverse.map (fun x => decide (x = -1)))
    (hk : k ≤ 6666)
    (h10 : (⌈(calcMini10 c k).m0⌉ + ⌈(calcMini10 c k).m90⌉ +
        max ((calcMini10 c k).m45 + (calcMini10 c k).m135) (calcMini10 c k).m45_135 +
        (if c.sym then 2 else 4) * (if c.damTol = true ∧ c.damTolAttr.twoPlies = true then 2 else 1) : Int) ≤
        Spec.designPlies c.sym k) :
    OneCase a P O trig4 plies w := by
  subst hP
  exact {
    cons := hc
    sameR := by rw [hR]; rfl
    sameS := hS.1
    objBound := hobj
    reduced := ⟨_, _, _, by rw [h3, hS.2]; exact hr⟩
    parity := fun _ => hpar
    noMinusOne := by rw [h2]; decide
    panels := by rw [hS.2, h5]; exact hpan
    rows := by rw [hS.2, h5]; exact hrows
    width := hwid
    full := by rw [hS.2, h5]; exact hfull
    count := by
      rw [hS.2, h5, ← hcount]
      intro p n row e1 e2
      rw [List.getElem?_map, e2] at e1
      exact Option.some.inj e1
    symm := by
      intro _ row hrow j
      have := congrArg (fun l => l[j]?) (hsym row hrow)
      simp only [List.getElem?_map] at this
      constructor <;> intro h <;> rw [h] at this
      · cases h' : row.reverse[j]? with
        | none => rw [h'] at this; cases this
        | some y => rw [h'] at this; simpa using this.symm
      · cases h' : row[j]? with
        | none => rw [h'] at this; cases this
        | some y => rw [h'] at this; simpa using this
    cov := by
      intro h
      rw [h4] at h
      cases h
    repair := by
      intro s hs hp hsym
      rw [hS.2, h5, h6] at hs
      have hs : k = s.length := Option.some.inj hs
      rw [hR]
      refine ssCase_of a false false P.c hc s h1 h2 (by omega) (fun y hy => ?_) (hsym h3) (by rw [← hs]; exact h10)
      have := hp y hy
      rw [h2] at this
      exact this }

end Bella
