import Verif.Proofs.ThickToThin
import Verif.Props.Steps
import Verif.Props.FormatPdl
import Verif.Props.Contig
import Verif.Props.Constraints
import Verif.Props.MembraneMore
import Verif.Spec.Lampam
/-
C34: the thick-to-thin repair.
-/
namespace Bella

/-- A blending strip to be repaired: the panels have different numbers of plies (of the same parity for symmetric
laminates), the table has one row per panel and as many columns as the thickest panel has plies, and the row of the
reference panel has the right number of plies and is symmetric if required. -/
structure StripTable (S : StripSetup) (sst : Table) (ss : List Stack) (pdlRef : Stack) : Prop where
  reduced : ∃ (plies : List Nat) (nRef : Int) (bs : List (Nat × Nat)) (bw : List ((Nat × Nat) × ℚ)),
    mkReduced plies S.c.sym nRef bs bw = .ok S.r ∧
      (S.c.sym = true → ∀ n ∈ plies, ∀ m ∈ plies, n % 2 = m % 2)
  nSst : sst.length = S.r.nPlies.length
  nSs : ss.length = S.r.nPlies.length
  ref : sst[S.r.indRef]? = some pdlRef
  width : S.r.nPlies[S.r.nPlies.length - 1]? = some pdlRef.length
  count : S.r.nPlies[S.r.indRef]? = some (pdlRef.filter (fun x => x != -1)).length
  symm : S.c.sym = true → Spec.Symmetric pdlRef

theorem pliesIn_eq (row : Stack) : pliesIn row = (row.filter (fun x => x != -1)).length :=
  List.countP_eq_length_filter

theorem strip_sorted {S : StripSetup} {sst : Table} {ss : List Stack} {pdlRef : Stack}
    (C : StripTable S sst ss pdlRef) : S.r.nPlies.Pairwise (· < ·) := by
  obtain ⟨plies, nRef, bs, bw, h, _⟩ := C.reduced
  exact (C15_reduction plies _ nRef bs bw _ h).1

/-- What C47 says about the steps of the strip. -/
theorem thin_steps {S : StripSetup} {sst : Table} {ss : List Stack} {pdlRef : Stack}
    (C : StripTable S sst ss pdlRef) : ∃ n0 : Nat, S.r.nPlies[0]? = some n0 ∧
      n0 + perSide S.c.sym * S.r.thin.length = pliesIn pdlRef ∧
      ∀ (i : Nat) (s : Step), S.r.thin[i]? = some s →
        ThinStepOk S.r (perSide S.c.sym) s (pliesIn pdlRef - perSide S.c.sym * i) := by
  obtain ⟨plies, nRef, bs, bw, h, hpar⟩ := C.reduced
  obtain ⟨nref, n0, h1, h2, h3, h4⟩ := C47_thick_to_thin_steps plies _ nRef bs bw _ h hpar _ rfl
  have e : nref = pliesIn pdlRef := by
    rw [C.count, ← pliesIn_eq] at h1
    exact (Option.some.inj h1).symm
  subst e
  refine ⟨n0, h2, h3, fun i s hs => ?_⟩
  obtain ⟨g1, g2, lo, hi, g3, g4, g5, g6, g7, g8⟩ := h4 i s hs
  have hil : i < S.r.thin.length := (List.getElem?_eq_some_iff.1 hs).1
  change _ + perSide S.c.sym * _ = _ at h3
  change s.nBefore = (pliesIn pdlRef : Int) - (perSide S.c.sym : Nat) * i at g1
  change s.nAfter = s.nBefore - (perSide S.c.sym : Nat) at g2
  have hm : perSide S.c.sym * i ≤ pliesIn pdlRef := by
    have := Nat.mul_le_mul_left (perSide S.c.sym) hil.le
    omega
  have hz : ((pliesIn pdlRef - perSide S.c.sym * i : Nat) : Int) = s.nBefore := by
    rw [Nat.cast_sub hm, g1]
    push_cast
    ring
  refine ⟨⟨lo, hi, g3, g4, ?_, ?_, ?_⟩, by omega⟩
  · omega
  · omega
  · rw [g7, ← hz]
    exact Int.natCast_inj

theorem beam_children {S : StripSetup} {nMax : Nat} {pdlRef : Stack} {i : Nat} {s : Step} {b : Bool}
    {ns ns' : List (Cand × Marks)} (h : thinStep S nMax pdlRef i s b ns = .ok ns') :
    ∀ n ∈ ns', ∃ m ∈ ns, (∃ ps p, dropPositions S.c nMax = .ok ps ∧ p ∈ ps ∧ p ∉ m.1.drops ∧
      thinChild S s nMax pdlRef m.1 p = .ok (some n.1)) ∧
      ∃ mk, thinEval S s nMax pdlRef m.2 n.1 = .ok (some mk) := by
  unfold thinStep at h
  obtain ⟨ls, hls, h⟩ := bind_ok.1 h
  cases h
  intro n hn
  have hn := mem_dropDuplicates (mem_globalStage hn)
  obtain ⟨m, hm, r, hr, hnr⟩ := mapM_flatten_mem hls hn
  obtain ⟨cs, hcs, hr⟩ := bind_ok.1 hr
  obtain ⟨⟨h1, mk, h2⟩, _⟩ := localStage_mem hr n hnr
  refine ⟨m, hm, ?_, mk, h2⟩
  unfold thinChildren at hcs
  obtain ⟨ps, hps, hcs⟩ := bind_ok.1 hcs
  obtain ⟨l, hl, hcs⟩ := bind_ok.1 hcs
  cases hcs
  obtain ⟨o, ho, he⟩ := List.mem_filterMap.1 h1
  simp only [id_eq] at he
  subst he
  obtain ⟨hlen, hall⟩ := mapM_get hl
  obtain ⟨j, hj, e⟩ := List.getElem_of_mem ho
  have hj' : j < (ps.filter (fun i => !m.1.drops.contains i)).length := by omega
  have hp := List.getElem_mem hj'
  rw [List.mem_filter] at hp
  refine ⟨ps, _, hps, hp.1, by simpa using hp.2, ?_⟩
  have := hall j _ (List.getElem?_eq_getElem hj')
  obtain ⟨y, hy1, hy2⟩ := this
  rw [List.getElem?_eq_getElem hj, e] at hy2
  cases hy2
  exact hy1

theorem thinEval_passed {S : StripSetup} {s : Step} {nMax : Nat} {pdlRef : Stack} {m mk : Marks} {x : Cand}
    (h : thinEval S s nMax pdlRef m x = .ok (some mk)) (row : Stack) (hr : x.pdl[s.indPanel]? = some (some row)) :
    Passed S (sstRowToSs row) := by
  unfold thinEval at h
  obtain ⟨row', hrow, h⟩ := bind_ok.1 h
  have e := rowAt_ok hrow
  rw [hr] at e
  have e := Option.some.inj (Option.some.inj e)
  subst e
  obtain ⟨_, _, h⟩ := bind_ok.1 h
  obtain ⟨_, _, h⟩ := bind_ok.1 h
  obtain ⟨ok1, h1, h⟩ := bind_ok.1 h
  cases ok1
  · cases h
  simp only [if_true] at h
  obtain ⟨ok2, h2, h⟩ := bind_ok.1 h
  cases ok2
  · cases h
  refine ⟨h1, fun h10 hab => ?_⟩
  unfold tenOk at h2
  rw [h10, hab] at h2
  simp only [if_true] at h2
  have := Except.ok.inj h2
  simpa using this

/-- The first node. -/
theorem thinInit_inv {S : StripSetup} {sst : Table} {ss : List Stack} {pdlRef : Stack}
    (C : StripTable S sst ss pdlRef) (lp cnt : List ℚ) :
    ThinInv S pdlRef S.r.indRef (pliesIn pdlRef) (thinInit S pdlRef.length pdlRef lp cnt).1 := by
  have href : S.r.indRef < S.r.nPlies.length := (List.getElem?_eq_some_iff.1 C.count).1
  have hat : ((List.replicate S.r.nPlies.length (none : Option Stack)).set S.r.indRef (some pdlRef))[S.r.indRef]? =
      some (some pdlRef) := by
    rw [List.getElem?_set, if_pos rfl, if_pos (by simpa using href)]
  have hcount : S.r.nPlies[S.r.indRef]? = some (pliesIn pdlRef) := by rw [pliesIn_eq]; exact C.count
  exact {
    len := by simp [thinInit]
    cpLe := le_rfl
    lo := ⟨_, hcount, le_rfl⟩
    hi := fun h => by omega
    atRef := fun _ => hcount
    rows := fun p h1 h2 => by
      have : p = S.r.indRef := by omega
      subst this
      exact ⟨pdlRef, hat, ⟨rfl, C.symm, fun _ _ _ => rfl, fun _ => Or.inl rfl⟩⟩
    refRow := hat
    nested := fun p h1 h2 => by omega
    done := fun p h1 h2 => by omega
    cur := fun row hr => by
      change _ = some (some row) at hr
      unfold thinInit at hr
      rw [hat] at hr
      cases hr
      rfl
    drops := fun row hr j hj => by
      unfold thinInit at hr ⊢
      rw [hat] at hr
      cases hr
      simp only [List.mem_filter, List.mem_range, beq_iff_eq]
      have hjl : j < pdlRef.length := by
        split_ifs at hj <;> omega
      rw [List.getD_eq_getElem?_getD, List.getElem?_eq_getElem hjl]
      simp [hj]
    passed := fun p h1 h2 => by omega
    bal := fun _ p h1 h2 row hr => by
      have : p = S.r.indRef := by omega
      subst this
      unfold thinInit at hr ⊢
      rw [hat] at hr
      cases hr
      exact ⟨[], fun _ => rfl, by simp, fun a _ _ _ _ _ => by simp⟩ }

theorem thin_nodes {S : StripSetup} {sst : Table} {ss : List Stack} {pdlRef : Stack}
    (C : StripTable S sst ss pdlRef) {lp cnt : List ℚ} {nodes : List (Cand × Marks)}
    (h : beamLoop (thinStep S pdlRef.length pdlRef) 0 S.r.thin [thinInit S pdlRef.length pdlRef lp cnt] = .ok nodes) :
    ∃ n0, S.r.nPlies[0]? = some n0 ∧ ∀ n ∈ nodes, ThinInv S pdlRef 0 n0 n.1 := by
  obtain ⟨n0, hn0, hlen, hsteps⟩ := thin_steps C
  have hu := strip_sorted C
  have href : S.r.indRef < S.r.nPlies.length := (List.getElem?_eq_some_iff.1 C.count).1
  have key := beamLoop_inv (step := thinStep S pdlRef.length pdlRef)
    (I := fun i n => ∃ cp, ThinInv S pdlRef cp (pliesIn pdlRef - perSide S.c.sym * i) n.1)
    S.r.thin 0 _ nodes (by
      intro j s b ns ns' hj hI hst n hn
      rw [Nat.zero_add] at *
      obtain ⟨m, hm, ⟨ps, p, hps, hp, hfree, hch⟩, mk, hev⟩ := beam_children hst n hn
      obtain ⟨cp, hcp⟩ := hI m hm
      refine ⟨s.indPanel, ?_⟩
      have := thinInv_step hcp hu (hsteps j s hj) hps hp hfree hch (fun row hr => thinEval_passed hev row hr)
      rw [show pliesIn pdlRef - perSide S.c.sym * (j + 1) =
        pliesIn pdlRef - perSide S.c.sym * j - perSide S.c.sym by rw [Nat.mul_succ]; omega]
      exact this) (by
      intro n hn
      rw [List.mem_singleton] at hn
      subst hn
      refine ⟨S.r.indRef, ?_⟩
      rw [Nat.mul_zero, Nat.sub_zero]
      exact thinInit_inv C lp cnt) h
  refine ⟨n0, hn0, fun n hn => ?_⟩
  obtain ⟨cp, hcp⟩ := key n hn
  rw [Nat.zero_add] at hcp
  have e : pliesIn pdlRef - perSide S.c.sym * S.r.thin.length = n0 := by omega
  rw [e] at hcp
  obtain ⟨lo, hlo1, hlo2⟩ := hcp.lo
  have : ¬ 0 < cp := fun h => by
    have := (sorted_get hu hn0 hlo1).1 h
    omega
  have : cp = 0 := by omega
  subst this
  exact hcp

theorem takeRows_ok {α : Type} {k : Nat} {rows : List (Option α)} {old new : List α} (hk : k ≤ old.length)
    (h : takeRows k rows old = .ok new) :
    new.length = old.length ∧ (∀ (p : Nat), k ≤ p → new[p]? = old[p]?) ∧
      ∀ (p : Nat), p < k → ∃ r, rows[p]? = some (some r) ∧ new[p]? = some r := by
  unfold takeRows at h
  obtain ⟨l, hl, h⟩ := bind_ok.1 h
  cases h
  obtain ⟨hlen, hall⟩ := mapM_get hl
  rw [List.length_range] at hlen
  refine ⟨by simp; omega, fun p hp => ?_, fun p hp => ?_⟩
  · rw [List.getElem?_append_right (by omega), List.getElem?_drop]
    congr 1
    omega
  · obtain ⟨r, h1, h2⟩ := hall p p (List.getElem?_range hp)
    refine ⟨r, rowAt_ok h1, ?_⟩
    rw [List.getElem?_append_left (by omega)]
    exact h2

/-- The result of a successful repair in terms of the selected node. -/
theorem thin_result {S : StripSetup} {sst : Table} {ss : List Stack} {pdlRef : Stack} {lampams : List (List ℚ)}
    (C : StripTable S sst ss pdlRef) {sst' : Table} {lps : List (List ℚ)} {ss' : List Stack}
    (h : repairThickToThin S lampams sst ss = .ok (true, sst', lps, ss')) :
    (S.r.indRef = 0 ∧ sst' = sst ∧ lps = lampams ∧ ss' = ss) ∨
    ∃ x n0, S.r.nPlies[0]? = some n0 ∧ ThinInv S pdlRef 0 n0 x ∧ sst'.length = sst.length ∧
      (∀ (p : Nat), S.r.indRef ≤ p → sst'[p]? = sst[p]?) ∧
      (∀ (p : Nat), p < S.r.indRef → ∃ r, x.pdl[p]? = some (some r) ∧ sst'[p]? = some r) ∧
      ss' = (sst'.take S.r.indRef).map sstRowToSs ++ ss.drop S.r.indRef := by
  have href : S.r.indRef < S.r.nPlies.length := (List.getElem?_eq_some_iff.1 C.count).1
  unfold repairThickToThin at h
  obtain ⟨ssRef, _, h⟩ := bind_ok.1 h
  obtain ⟨pr, hpr, h⟩ := bind_ok.1 h
  rw [pyGet_eq_ok, C.ref] at hpr
  cases hpr
  obtain ⟨nMax, hmax, h⟩ := bind_ok.1 h
  rw [pyGet_eq_ok, C.width] at hmax
  cases hmax
  cases hthin : S.r.thin.isEmpty
  · right
    rw [hthin] at h
    simp only [Bool.false_eq_true, if_false] at h
    obtain ⟨lpRef, _, h⟩ := bind_ok.1 h
    obtain ⟨cnt, _, h⟩ := bind_ok.1 h
    obtain ⟨nodes, hn, h⟩ := bind_ok.1 h
    obtain ⟨n0, hn0, hall⟩ := thin_nodes C hn
    unfold thinSelect at h
    split at h
    · cases h
    · rename_i best hbest
      unfold thinFinish at h
      obtain ⟨sst1, h1, h⟩ := bind_ok.1 h
      obtain ⟨lps1, h2, h⟩ := bind_ok.1 h
      obtain ⟨_, _, h⟩ := bind_ok.1 h
      obtain ⟨_, _, h⟩ := bind_ok.1 h
      obtain ⟨_, _, h⟩ := bind_ok.1 h
      obtain ⟨_, _, h⟩ := bind_ok.1 h
      cases h
      obtain ⟨g1, g2, g3⟩ := takeRows_ok (by rw [C.nSst]; omega) h1
      exact ⟨best.1, n0, hn0, hall best (List.mem_of_getElem? hbest), g1, g2, g3, rfl⟩
  · left
    rw [hthin] at h
    simp only [if_true] at h
    cases h
    obtain ⟨n0, hn0, hlen, _⟩ := thin_steps C
    rw [List.isEmpty_iff] at hthin
    rw [hthin] at hlen
    refine ⟨?_, rfl, rfl, rfl⟩
    by_contra hne
    have hc := C.count
    rw [← pliesIn_eq] at hc
    have := (sorted_get (strip_sorted C) hn0 hc).1 (by omega)
    simp at hlen
    omega

/-- C34: after a successful thick-to-thin repair the rows of the reference panel and of the thicker panels are
unchanged; each thinner panel has its number of plies, is obtained from the next thicker one by dropping plies only, and its
laminate consists of the plies of its row. -/
theorem C34_nested_panels (S : StripSetup) (lampams : List (List ℚ)) (sst : Table) (ss : List Stack) (pdlRef : Stack)
    (C : StripTable S sst ss pdlRef) (sst' : Table) (lps : List (List ℚ)) (ss' : List Stack)
    (h : repairThickToThin S lampams sst ss = .ok (true, sst', lps, ss')) :
    sst'.length = sst.length ∧ ss'.length = ss.length ∧
    (∀ (p : Nat), S.r.indRef ≤ p → sst'[p]? = sst[p]? ∧ ss'[p]? = ss[p]?) ∧
    ∀ (p : Nat), p < S.r.indRef → ∃ row up : Stack, sst'[p]? = some row ∧ sst'[p + 1]? = some up ∧
      row.length = pdlRef.length ∧ (∀ (j : Nat), row[j]? = up[j]? ∨ row[j]? = some (-1)) ∧
      ss'[p]? = some (row.filter (fun x => x != -1)) ∧
      S.r.nPlies[p]? = some (row.filter (fun x => x != -1)).length := by
  rcases thin_result C h with ⟨h0, rfl, rfl, rfl⟩ | ⟨x, n0, hn0, I, h1, h2, h3, h4⟩
  · exact ⟨rfl, rfl, fun _ _ => ⟨rfl, rfl⟩, fun p hp => by omega⟩
  · have href : S.r.indRef < S.r.nPlies.length := (List.getElem?_eq_some_iff.1 C.count).1
    have hl := C.nSst
    have hl' := C.nSs
    have htake : ((sst'.take S.r.indRef).map sstRowToSs).length = S.r.indRef := by simp; omega
    refine ⟨h1, by rw [h4]; simp; omega, fun p hp => ⟨h2 p hp, ?_⟩, fun p hp => ?_⟩
    · rw [h4, List.getElem?_append_right (by omega), htake, List.getElem?_drop]
      congr 1
      omega
    · obtain ⟨row, hx, hr⟩ := h3 p hp
      obtain ⟨row', hx', G⟩ := I.rows p (by omega) hp.le
      rw [hx] at hx'
      have e := Option.some.inj (Option.some.inj hx')
      subst e
      -- the next thicker panel
      obtain ⟨up, hup, hup'⟩ : ∃ up, x.pdl[p + 1]? = some (some up) ∧ sst'[p + 1]? = some up := by
        by_cases e : p + 1 = S.r.indRef
        · rw [e]
          exact ⟨pdlRef, I.refRow, by rw [h2 _ le_rfl, C.ref]⟩
        · exact h3 (p + 1) (by omega)
      refine ⟨row, up, hr, hup', G.len, I.nested p (by omega) hp row up hx hup, ?_, ?_⟩
      · rw [h4, List.getElem?_append_left (by omega), List.getElem?_map, List.getElem?_take, if_pos hp, hr]
        simp only [Option.map_some, sstRowToSs_eq]
      · rw [← pliesIn_eq]
        by_cases e : p = 0
        · subst e
          rw [I.cur row hx, hn0]
        · exact I.done p (by omega) hp.le row hx

/-- C34: the thinner panels keep the covering plies (the cells next to both faces are those of the reference panel), are
symmetric if required, and meet the contiguity rule and the 10% rule in its lamination parameter variant. -/
theorem C34_rules (S : StripSetup) (lampams : List (List ℚ)) (sst : Table) (ss : List Stack) (pdlRef : Stack)
    (C : StripTable S sst ss pdlRef) (sst' : Table) (lps : List (List ℚ)) (ss' : List Stack)
    (h : repairThickToThin S lampams sst ss = .ok (true, sst', lps, ss')) (p : Nat) (hp : p < S.r.indRef) :
    ∃ row s : Stack, sst'[p]? = some row ∧ ss'[p]? = some s ∧
      (S.c.covering = true → ∀ (j : Nat), j < pdlRef.length → j < S.c.nCovering ∨ pdlRef.length ≤ j + S.c.nCovering →
        row[j]? = pdlRef[j]?) ∧
      (S.c.sym = true → Spec.Symmetric row ∧ Spec.Symmetric s) ∧
      (S.c.contig = true → 2 ≤ S.c.nContig → S.c.nContig ≤ 6 → Spec.ContigOK S.c.nContig
        (if S.c.damTol = true ∧ S.c.damTolAttr.twoPlies = true then (s.drop 1).dropLast else s)) ∧
      (S.c.rule10 = true → S.c.rule10Abdalla = true → S.dist (S.lampam s) = 0) := by
  obtain ⟨_, _, _, hpan⟩ := C34_nested_panels S lampams sst ss pdlRef C sst' lps ss' h
  obtain ⟨row, up, hr, _, _, _, hs, _⟩ := hpan p hp
  rcases thin_result C h with ⟨h0, _⟩ | ⟨x, n0, hn0, I, h1, h2, h3, h4⟩
  · omega
  obtain ⟨row', hx, hr'⟩ := h3 p hp
  rw [hr] at hr'
  have e := Option.some.inj hr'
  subst e
  obtain ⟨row', hx', G⟩ := I.rows p (by omega) hp.le
  rw [hx] at hx'
  have e := Option.some.inj (Option.some.inj hx')
  subst e
  have hpass := I.passed p (by omega) hp row hx
  rw [sstRowToSs_eq] at hpass
  refine ⟨row, _, hr, hs, fun hc j hj hcov => ?_, fun hsym => ⟨G.symm hsym, ?_⟩, fun hc h2 h6 => ?_, hpass.2⟩
  · apply G.cover j hj
    unfold nCov
    rw [if_pos hc]
    exact hcov
  · have := G.symm hsym
    unfold Spec.Symmetric at this ⊢
    rw [← List.filter_reverse, this]
  · have hk := hpass.1
    unfold contigOk at hk
    rw [if_pos hc] at hk
    obtain ⟨q, hq, hk⟩ := bind_ok.1 hk
    have hq0 : q = 0 := by simpa using Except.ok.inj hk
    rw [hq0] at hq
    rw [C05_penalty_zero_iff _ _ _ _ h2 h6] at hq
    exact (C04_is_contig_iff _ _ h2 h6).1.1 hq

/-- C34: with the balance rule, each thinner panel is balanced or lacks one ply (one on each side of the mid-plane of
a symmetric laminate) of one angle, if the reference panel is balanced. -/
theorem C34_balance (a : ConsArgs) (S : StripSetup) (lampams : List (List ℚ)) (sst : Table) (ss : List Stack)
    (pdlRef : Stack) (C : StripTable S sst ss pdlRef) (hcons : mkConstraints a = .ok S.c) (hb : S.c.bal = true)
    (hm1 : (-1 : Int) ∉ S.c.angles) (hang : ∀ x ∈ pdlRef, x ≠ -1 → x ∈ S.c.angles)
    (href : Spec.Balanced (pdlRef.filter (fun x => x != -1))) (sst' : Table) (lps : List (List ℚ)) (ss' : List Stack)
    (h : repairThickToThin S lampams sst ss = .ok (true, sst', lps, ss')) (p : Nat) (hp : p < S.r.indRef) :
    ∃ s, ss'[p]? = some s ∧ (Spec.Balanced s ∨ ∃ b : Int, ∀ x : Int, x ≠ 0 → x ≠ 90 → x ≠ -90 →
      (s.count x : Int) - s.count (-x) =
        (if S.c.sym then 2 else 1) * ((if x = -b then 1 else 0) - (if x = b then 1 else 0))) := by
  obtain ⟨_, _, _, hpan⟩ := C34_nested_panels S lampams sst ss pdlRef C sst' lps ss' h
  obtain ⟨row, up, hr, _, _, _, hs, _⟩ := hpan p hp
  rcases thin_result C h with ⟨h0, _⟩ | ⟨x, n0, hn0, I, h1, h2, h3, h4⟩
  · omega
  obtain ⟨row', hx, hr'⟩ := h3 p hp
  rw [hr] at hr'
  have e := Option.some.inj hr'
  subst e
  obtain ⟨row', hx', G⟩ := I.rows p (by omega) hp.le
  rw [hx] at hx'
  have e := Option.some.inj (Option.some.inj hx')
  subst e
  obtain ⟨q, _, hq1, hq2⟩ := I.bal hb p (by omega) hp.le row hx
  refine ⟨_, hs, ?_⟩
  -- counts in the row and in the laminate
  have hcount : ∀ (l : Stack) (x : Int), x ≠ -1 → (l.filter (fun x => x != -1)).count x = l.count x := by
    intro l x hx
    rw [List.count_filter (by simpa using hx)]
  have hone : ∀ l : Stack, (∀ x ∈ l, x ≠ -1 → x ∈ S.c.angles) → l.count 1 = 0 := by
    intro l hl
    rw [List.count_eq_zero]
    intro hmem
    have h1' := hl 1 hmem (by decide)
    exact hm1 ((C14_angles a S.c hcons).2.2.2.2.2.1 1 h1' (by decide))
  have hrow : ∀ x ∈ row, x ≠ -1 → x ∈ S.c.angles := by
    intro y hy hne
    obtain ⟨j, hj⟩ := List.mem_iff_getElem?.1 hy
    rcases G.sub j with e | e
    · exact hang y (List.mem_of_getElem? (e ▸ hj)) hne
    · rw [hj] at e
      exact absurd (Option.some.inj e) hne
  have hneg : ∀ l : Stack, (l.filter (fun x => x != -1)).count (-1) = 0 := by
    intro l
    rw [List.count_eq_zero, List.mem_filter]
    simp
  have hpos : (row.filter (fun x => x != -1)).count 1 = 0 := by
    rw [hcount _ _ (by decide)]
    exact hone row hrow
  have himb : ∀ y : Int, y ≠ 0 → y ≠ 90 → y ≠ -90 → y ≠ 1 → y ≠ -1 →
      ((row.filter (fun x => x != -1)).count y : Int) - (row.filter (fun x => x != -1)).count (-y) =
      - (q.map (fun b => (perSide S.c.sym : Int) * ((if y = b then 1 else 0) - (if y = -b then 1 else 0)))).sum := by
    intro y y0 y90 ym90 y1 ym1
    have e := hq2 y y0 y90 ym90 y1 ym1
    have e2 := href y y0 y90 ym90
    rw [hcount _ _ ym1, hcount _ _ (by omega)] at e2 ⊢
    unfold imbalance at e
    rw [e, e2]
    ring
  have hbalanced : (∀ y : Int, y ≠ 1 → y ≠ -1 →
      (q.map (fun b => (perSide S.c.sym : Int) * ((if y = b then 1 else 0) - (if y = -b then 1 else 0)))).sum = 0) →
      Spec.Balanced (row.filter (fun x => x != -1)) := by
    intro hz y y0 y90 ym90
    by_cases y1 : y = 1
    · rw [y1, hpos, hneg]
    by_cases ym1 : y = -1
    · rw [ym1, hneg, neg_neg, hpos]
    have := himb y y0 y90 ym90 y1 ym1
    rw [hz y y1 ym1] at this
    omega
  cases q with
  | nil => exact Or.inl (hbalanced (fun y _ _ => by simp))
  | cons b t =>
    have ht : t = [] := by
      cases t with
      | nil => rfl
      | cons => simp at hq1
    subst ht
    by_cases hb1 : b = 1 ∨ b = -1
    · refine Or.inl (hbalanced (fun y y1 ym1 => ?_))
      have e1 : ¬ y = b := by omega
      have e2 : ¬ y = -b := by omega
      simp [e1, e2]
    · refine Or.inr ⟨b, fun y y0 y90 ym90 => ?_⟩
      by_cases y1 : y = 1 ∨ y = -1
      · have e1 : ¬ y = b := by omega
        have e2 : ¬ y = -b := by omega
        rw [if_neg e1, if_neg e2]
        rcases y1 with rfl | rfl
        · rw [hpos, hneg]; simp
        · rw [hneg, neg_neg, hpos]; simp
      · rw [himb y y0 y90 ym90 (by tauto) (by tauto)]
        simp only [List.map_cons, List.map_nil, List.sum_cons, List.sum_nil, perSide]
        split_ifs <;> simp

/-! ### Examples and violations -/

/-- The in-plane and out-of-plane lamination parameters of a laminate with the plies 0, 45, 90, -45. -/
def stripLampam (ss : Stack) : List ℚ :=
  (List.range 4).map (fun (k : Nat) => Spec.lampamA (fun (a : Int) => trig4 a k) ss) ++
    (List.range 4).map (fun (k : Nat) => Spec.lampamD (fun (a : Int) => trig4 a k) ss)

/-- Panels with given targets and equal weights. -/
def stripSetup (c : Cons) (r : Reduced) (targets : Table) : StripSetup where
  c := c
  r := r
  targets := targets.map stripLampam
  weights := targets.map (fun _ => List.replicate 8 1)
  panelWeights := targets.map (fun _ => 1)
  lampam := stripLampam
  dist := fun _ => 0
  localLimit := 5
  globalLimit := 5

/-- Most of the rules. -/
def stripArgs : ConsArgs where
  sym := true
  bal := true
  contig := true
  nContig := 3
  covering := true
  nCovering := 1
  rule10 := true
  percent0 := 10
  percent90 := 10
  percent45_135 := 20
  pdlSpacing := true
  minDrop := 2

/-- A laminate of 18 plies and its empty layout: three panels of 18, 14 and 10 plies. -/
def stripRow : Stack := [45, 0, -45, 90, 0, 45, 90, -45, 0, 0, -45, 90, 45, 0, 90, -45, 0, 45]

/-- Three panels of 10, 14 and 18 plies. -/
def strip3 : Py Reduced := mkReduced [18, 14, 10] true 18 [(0, 1), (1, 2)] [((0, 1), 1), ((1, 2), 1)]

theorem stripTable_of (S : StripSetup) (sst : Table) (ss : List Stack) (pdlRef : Stack) (plies : List Nat) (sym : Bool)
    (nRef : Int) (bs : List (Nat × Nat)) (bw : List ((Nat × Nat) × ℚ)) (hs : S.c.sym = sym)
    (hr : mkReduced plies sym nRef bs bw = .ok S.r) (hpar : sym = true → ∀ n ∈ plies, ∀ m ∈ plies, n % 2 = m % 2)
    (h : sst.length = S.r.nPlies.length ∧ ss.length = S.r.nPlies.length ∧ sst[S.r.indRef]? = some pdlRef ∧
      S.r.nPlies[S.r.nPlies.length - 1]? = some pdlRef.length ∧
      S.r.nPlies[S.r.indRef]? = some (pdlRef.filter (fun x => x != -1)).length ∧ pdlRef.reverse = pdlRef) :
    StripTable S sst ss pdlRef where
  reduced := ⟨plies, nRef, bs, bw, by rw [hs]; exact hr, by rw [hs]; exact hpar⟩
  nSst := h.1
  nSs := h.2.1
  ref := h.2.2.1
  width := h.2.2.2.1
  count := h.2.2.2.2.1
  symm := fun _ => h.2.2.2.2.2

set_option synthInstance.maxHeartbeats 200000 in
set_option synthInstance.maxSize 1000 in
/-- Three panels are repaired with the rules; the thinnest one lacks its plies at -45. -/
theorem strip3_repaired : ∃ c r, mkConstraints stripArgs = .ok c ∧ c.bal = true ∧ strip3 = .ok r ∧ r.indRef = 2 ∧ (-1 : Int) ∉ c.angles ∧
    StripTable (stripSetup c r [[0, 90], [0], [0]]) [stripRow, stripRow, stripRow] [stripRow, stripRow, stripRow] stripRow ∧
    (∀ x ∈ stripRow, x ≠ -1 → x ∈ c.angles) ∧ Spec.Balanced (stripRow.filter (fun x => x != -1)) ∧
    ∃ lps, repairThickToThin (stripSetup c r [[0, 90], [0], [0]])
        ([stripRow, stripRow, stripRow].map stripLampam) [stripRow, stripRow, stripRow] [stripRow, stripRow, stripRow] =
      .ok (true,
        [[45, 0, -1, 90, -1, -1, 90, -1, 0, 0, -1, 90, -1, -1, 90, -1, 0, 45],
         [45, 0, -1, 90, 0, -1, 90, -45, 0, 0, -45, 90, -1, 0, 90, -1, 0, 45], stripRow],
        lps,
        [[45, 0, 90, 90, 0, 0, 90, 90, 0, 45], [45, 0, 90, 0, 90, -45, 0, 0, -45, 90, 0, 90, 0, 45], stripRow]) := by
  obtain ⟨c, hc, ht⟩ := ok_of_test (mkConstraints stripArgs) (fun (c : Cons) => match strip3 with
    | .error _ => false
    | .ok r => decide (c.angles = [-45, 0, 45, 90] ∧ c.sym = true ∧ c.bal = true ∧ r.indRef = 2 ∧ r.nPlies = [10, 14, 18]) &&
      match repairThickToThin (stripSetup c r [[0, 90], [0], [0]])
        ([stripRow, stripRow, stripRow].map stripLampam) [stripRow, stripRow, stripRow] [stripRow, stripRow, stripRow] with
      | .error _ => false
      | .ok x => decide (x.1 = true ∧ x.2.1 = [[45, 0, -1, 90, -1, -1, 90, -1, 0, 0, -1, 90, -1, -1, 90, -1, 0, 45], [45, 0, -1, 90, 0, -1, 90, -45, 0, 0, -45, 90, -1, 0, 90, -1, 0, 45], stripRow] ∧ x.2.2.2 = [[45, 0, 90, 90, 0, 0, 90, 90, 0, 45], [45, 0, 90, 0, 90, -45, 0, 0, -45, 90, 0, 90, 0, 45], stripRow])) (by decide +kernel)
  split at ht
  · cases ht
  · rename_i r hr
    rw [Bool.and_eq_true] at ht
    obtain ⟨h1, h2⟩ := ht
    obtain ⟨t1, t2, tb, t3, t4⟩ := of_decide_eq_true h1
    split at h2
    · cases h2
    · rename_i x hx
      obtain ⟨g1, g2, g3⟩ := of_decide_eq_true h2
      obtain ⟨x1, x2, x3, x4⟩ := x
      dsimp only at g1 g2 g3
      subst g1 g2 g3
      refine ⟨c, r, hc, tb, hr, t3, by rw [t1]; decide, ?_, by rw [t1]; decide, ?_, x3, hx⟩
      · refine stripTable_of _ _ _ _ _ true _ _ _ t2 hr (fun _ => by decide) ?_
        change _ = r.nPlies.length ∧ _ = r.nPlies.length ∧ _[r.indRef]? = _ ∧
          r.nPlies[r.nPlies.length - 1]? = _ ∧ r.nPlies[r.indRef]? = _ ∧ _
        rw [t3, t4]
        decide
      · intro a _ _ _
        by_cases h : a = 45 ∨ a = -45
        · rcases h with rfl | rfl <;> decide
        · rw [List.count_eq_zero.2, List.count_eq_zero.2] <;> intro hm <;> simp [stripRow] at hm <;> omega

/-- C34 (violated): a repair that ends with success can return an unbalanced panel although balance is required and the
reference panel is balanced. -/
theorem C34_balance_violation : ∃ a S sst ss pdlRef, mkConstraints a = .ok S.c ∧
    StripTable S sst ss pdlRef ∧ S.c.bal = true ∧ Spec.Balanced (pdlRef.filter (fun x => x != -1)) ∧
    ∃ lampams sst' lps ss', repairThickToThin S lampams sst ss = .ok (true, sst', lps, ss') ∧
      ∃ s ∈ ss', ¬ Spec.Balanced s := by
  obtain ⟨c, r, hc, hb, _, _, _, h1, _, h2, lps, h3⟩ := strip3_repaired
  refine ⟨stripArgs, stripSetup c r [[0, 90], [0], [0]], _, _, _, hc, h1, hb, h2, _, _, lps, _, h3, _,
    List.mem_cons_self, fun h => ?_⟩
  have := h 45 (by decide) (by decide) (by decide)
  revert this
  decide

/-- The 10% rule for the plies at 0 and 90. -/
def tenArgs : ConsArgs where
  sym := true
  rule10 := true
  percent0 := 10
  percent90 := 10

/-- A reference laminate of 8 plies. -/
def tenRow : Stack := [0, 90, 0, 90, 90, 0, 90, 0]

/-- Two panels, of 8 and 4 plies. -/
def strip2 (n m : Nat) : Py Reduced := mkReduced [n, m] true n [(0, 1)] [((0, 1), 1)]

/-- C34 (violated): a repair that ends with success can return a panel that violates the 10% rule although the
reference panel meets it: the rule is tested on the ply counts of another layout. -/
theorem C34_ten_percent_violation : ∃ S sst ss, mkConstraints tenArgs = .ok S.c ∧ S.c.rule10 = true ∧
    S.c.p0 = 1 / 10 ∧ StripTable S sst ss tenRow ∧ ss[S.r.indRef]? = some tenRow ∧
    ∃ lampams sst' lps ss', repairThickToThin S lampams sst ss = .ok (true, sst', lps, ss') ∧
      ∃ s ∈ ss', s = [90, 90, 90, 90] := by
  obtain ⟨c, hc, ht⟩ := ok_of_test (mkConstraints tenArgs) (fun (c : Cons) => match strip2 8 4 with
    | .error _ => false
    | .ok r => decide (c.rule10 = true ∧ c.p0 = 1 / 10 ∧ c.sym = true ∧ r.indRef = 1 ∧ r.nPlies = [4, 8]) &&
      match repairThickToThin (stripSetup c r [[90, 0, 0, 90], [0]])
        ([tenRow, tenRow].map stripLampam) [tenRow, tenRow] [tenRow, tenRow] with
      | .error _ => false
      | .ok x => decide (x.1 = true ∧ x.2.2.2 = [[90, 90, 90, 90], tenRow])) (by decide +kernel)
  split at ht
  · cases ht
  · rename_i r hr
    rw [Bool.and_eq_true] at ht
    obtain ⟨h1, h2⟩ := ht
    obtain ⟨t1, t2, t3, t4, t5⟩ := of_decide_eq_true h1
    split at h2
    · cases h2
    · rename_i x hx
      obtain ⟨g1, g3⟩ := of_decide_eq_true h2
      obtain ⟨x1, x2, x3, x4⟩ := x
      dsimp only at g1 g3
      subst g1 g3
      refine ⟨stripSetup c r [[90, 0, 0, 90], [0]], [tenRow, tenRow], [tenRow, tenRow], hc, t1, t2, ?_, ?_,
        _, _, _, _, hx, _, List.mem_cons_self, rfl⟩
      · refine stripTable_of _ _ _ _ _ true _ _ _ t3 hr (fun _ => by decide) ?_
        change _ = r.nPlies.length ∧ _ = r.nPlies.length ∧ _[r.indRef]? = _ ∧
          r.nPlies[r.nPlies.length - 1]? = _ ∧ r.nPlies[r.indRef]? = _ ∧ _
        rw [t4, t5]
        decide
      · change _[r.indRef]? = _
        rw [t4]
        rfl

theorem evalAll_sublist {eval : Cand → Py (Option Marks)} : ∀ {l : List Cand} {evs : List (Cand × Marks)},
    evalAll eval l = .ok evs → (evs.map Prod.fst).Sublist l ∧
      ∀ x ∈ l, (∃ m, eval x = .ok (some m)) → x ∈ evs.map Prod.fst := by
  intro l
  induction l with
  | nil => intro evs h; cases h; exact ⟨List.Sublist.slnil, fun x hx => by cases hx⟩
  | cons x t ih =>
    intro evs h
    unfold evalAll at h
    obtain ⟨m, hm, h⟩ := bind_ok.1 h
    obtain ⟨rest, hr, h⟩ := bind_ok.1 h
    obtain ⟨i1, i2⟩ := ih hr
    cases m with
    | none =>
      cases h
      refine ⟨i1.cons _, fun y hy hm' => ?_⟩
      rcases List.mem_cons.1 hy with rfl | hy
      · obtain ⟨m', hm'⟩ := hm'
        rw [hm] at hm'
        cases hm'
      · exact i2 y hy hm'
    | some m =>
      cases h
      refine ⟨i1.cons_cons _, fun y hy hm' => ?_⟩
      rcases List.mem_cons.1 hy with rfl | hy
      · exact List.mem_cons_self
      · exact List.mem_cons_of_mem _ (i2 y hy hm')

/-- C35: with `m` surviving children (in their order), the node number `i` has the layout of the survivor number `i`
but the ply counts, the lamination parameters and the objective of the survivor number `m - 1 - i`. -/
theorem C35_reversed_tables (limit : Nat) (eval : Cand → Py (Option Marks)) (children : List Cand)
    (nodes : List (Cand × Marks)) (h : localStage limit true eval children = .ok nodes) :
    ∃ survivors : List Cand, nodes.length = survivors.length ∧ survivors.Sublist (pruneTied limit Cand.spacing children) ∧
      (∀ x ∈ pruneTied limit Cand.spacing children, x ∈ survivors ↔ ∃ m, eval x = .ok (some m)) ∧
      ∀ (i : Nat) (n : Cand × Marks), nodes[i]? = some n → survivors[i]? = some n.1 ∧
        ∃ y, survivors[survivors.length - 1 - i]? = some y ∧ eval y = .ok (some n.2) := by
  unfold localStage at h
  obtain ⟨evs, he, h⟩ := bind_ok.1 h
  cases h
  obtain ⟨hs, hc⟩ := evalAll_sublist he
  have hm := evalAll_mem he
  simp only [if_true]
  refine ⟨(evs.map Prod.fst).reverse, by simp, by simpa using hs.reverse, fun x hx => ?_, fun i n hn => ?_⟩
  · rw [List.mem_reverse]
    refine ⟨fun h => ?_, hc x (by simpa using hx)⟩
    obtain ⟨e, h1, h2⟩ := List.mem_map.1 h
    exact ⟨e.2, h2 ▸ (hm e h1).2⟩
  · rw [List.getElem?_zip_eq_some] at hn
    obtain ⟨h1, h2⟩ := hn
    refine ⟨h1, ?_⟩
    rw [List.getElem?_map, Option.map_eq_some_iff] at h2
    obtain ⟨e, he1, he2⟩ := h2
    have hi : i < evs.length := (List.getElem?_eq_some_iff.1 he1).1
    refine ⟨e.1, ?_, he2 ▸ (hm e (List.mem_of_getElem? he1)).2⟩
    rw [List.getElem?_reverse (by simp; omega)]
    simp only [List.length_map, List.length_reverse, List.getElem?_map]
    rw [show evs.length - 1 - (evs.length - 1 - i) = i by omega, he1]
    rfl

/-- Only the symmetry rule. -/
def symArgs : ConsArgs where
  sym := true

/-- A reference laminate of 6 plies. -/
def sixRow : Stack := [0, 90, 45, 45, 90, 0]

/-- C35 (violated): the target of the thinner panel is met exactly by dropping the plies at 45 from the reference
panel, but the repair returns the worst layout, together with the lamination parameters of the best one. -/
theorem C35_selection_violation : ∃ S sst ss, mkConstraints symArgs = .ok S.c ∧ StripTable S sst ss sixRow ∧
    S.lampam = stripLampam ∧ ss[S.r.indRef]? = some sixRow ∧
    S.targets[0]? = some (stripLampam [0, 90, 90, 0]) ∧ S.weights[0]? = some (List.replicate 8 1) ∧
    ∃ lampams sst' lps ss', repairThickToThin S lampams sst ss = .ok (true, sst', lps, ss') ∧
      ss'[0]? = some [90, 45, 45, 90] ∧ lps[0]? = some (stripLampam [0, 90, 90, 0]) ∧
      objOnePanel (stripLampam [90, 45, 45, 90]) (stripLampam [0, 90, 90, 0]) (List.replicate 8 1) = .ok (135 / 32) ∧
      objOnePanel (stripLampam [0, 90, 90, 0]) (stripLampam [0, 90, 90, 0]) (List.replicate 8 1) = .ok 0 ∧
      objOnePanel (stripLampam [0, 45, 45, 0]) (stripLampam [0, 90, 90, 0]) (List.replicate 8 1) = .ok (51 / 32) := by
  obtain ⟨c, hc, ht⟩ := ok_of_test (mkConstraints symArgs) (fun (c : Cons) => match strip2 6 4 with
    | .error _ => false
    | .ok r => decide (c.sym = true ∧ r.indRef = 1 ∧ r.nPlies = [4, 6]) &&
      match repairThickToThin (stripSetup c r [[0, 90, 90, 0], [0]])
        ([sixRow, sixRow].map stripLampam) [sixRow, sixRow] [sixRow, sixRow] with
      | .error _ => false
      | .ok x => decide (x.1 = true ∧ x.2.2.1[0]? = some (stripLampam [0, 90, 90, 0]) ∧
        x.2.2.2 = [[90, 45, 45, 90], sixRow])) (by decide +kernel)
  split at ht
  · cases ht
  · rename_i r hr
    rw [Bool.and_eq_true] at ht
    obtain ⟨h1, h2⟩ := ht
    obtain ⟨t3, t4, t5⟩ := of_decide_eq_true h1
    split at h2
    · cases h2
    · rename_i x hx
      obtain ⟨g1, g2, g3⟩ := of_decide_eq_true h2
      obtain ⟨x1, x2, x3, x4⟩ := x
      dsimp only at g1 g2 g3
      subst g1 g3
      refine ⟨stripSetup c r [[0, 90, 90, 0], [0]], [sixRow, sixRow], [sixRow, sixRow], hc, ?_, rfl, ?_, rfl, rfl,
        _, _, _, _, hx, rfl, g2, by decide +kernel, by decide +kernel, by decide +kernel⟩
      · refine stripTable_of _ _ _ _ _ true _ _ _ t3 hr (fun _ => by decide) ?_
        change _ = r.nPlies.length ∧ _ = r.nPlies.length ∧ _[r.indRef]? = _ ∧
          r.nPlies[r.nPlies.length - 1]? = _ ∧ r.nPlies[r.indRef]? = _ ∧ _
        rw [t4, t5]
        decide
      · change _[r.indRef]? = _
        rw [t4]
        rfl

end Bella
