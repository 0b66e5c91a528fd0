import Verif.Model.LampamMatrix
import Verif.Props.Search
import Verif.Props.Assembly
import Verif.Props.Moments
import Verif.Proofs.OnePdl
import Verif.Props.Constraints
/-
C63: the lamination parameters of the beam search are those of the laminates assembled from its nodes.
-/
namespace Bella

/-- The loop over a row of the layout. -/
theorem lampamRowLoop_spec (d : Nat → Py Lampams) (row : Stack) : ∀ (k : Nat) (out : List Lampams),
    lampamRowLoop d row k = .ok out → out.length = row.length ∧ ∀ (l : Nat) (x : Int), row[l]? = some x →
      (x = -1 → out[l]? = some 0) ∧
      (x ≠ -1 → ∃ v, d (k + Spec.plyCount row l) = .ok v ∧ out[l]? = some v) := by
  induction row with
  | nil =>
    intro k out h
    cases h
    exact ⟨rfl, fun l x hx => by simp at hx⟩
  | cons y row ih =>
    intro k out h
    unfold lampamRowLoop at h
    by_cases hy : y ≠ -1
    · rw [if_pos hy] at h
      obtain ⟨v, h1, h⟩ := bind_ok.1 h
      obtain ⟨rest, h2, h⟩ := bind_ok.1 h
      have h := Except.ok.inj h
      subst h
      obtain ⟨i1, i2⟩ := ih _ _ h2
      refine ⟨by simp [i1], fun l x hx => ?_⟩
      cases l with
      | zero =>
        simp at hx
        subst hx
        exact ⟨fun e => absurd e hy, fun _ => ⟨v, by simpa [Spec.plyCount] using h1, rfl⟩⟩
      | succ l =>
        have := i2 l x (by simpa using hx)
        refine ⟨fun e => by simpa using this.1 e, fun e => ?_⟩
        obtain ⟨w, w1, w2⟩ := this.2 e
        refine ⟨w, ?_, by simpa using w2⟩
        rw [← w1]
        congr 1
        simp [Spec.plyCount, List.countP_cons, hy]
        omega
    · rw [if_neg hy] at h
      obtain ⟨rest, h2, h⟩ := bind_ok.1 h
      have h := Except.ok.inj h
      subst h
      obtain ⟨i1, i2⟩ := ih _ _ h2
      rw [not_not] at hy
      refine ⟨by simp [i1], fun l x hx => ?_⟩
      cases l with
      | zero =>
        simp at hx
        subst hx
        exact ⟨fun _ => rfl, fun e => absurd hy e⟩
      | succ l =>
        have := i2 l x (by simpa using hx)
        refine ⟨fun e => by simpa using this.1 e, fun e => ?_⟩
        obtain ⟨w, w1, w2⟩ := this.2 e
        refine ⟨w, ?_, by simpa using w2⟩
        rw [← w1]
        congr 1
        simp [Spec.plyCount, List.countP_cons, hy]

/-- Plies counted along a row of the layout. -/
theorem counted_sum {V : Type} [AddMonoid V] (g : Nat → Int → V) (row : Stack) (f : Nat → Int)
    (hrow : ∀ x ∈ row, -1 ≤ x) (m : Nat) (hm : m ≤ row.length) :
    ((List.range m).map (fun (l : Nat) => if 0 ≤ row.getD l (-1) then g (Spec.plyCount row l) (f l) else 0)).sum =
      ((List.range (Spec.panelPlies row ((List.range m).map (fun (l : Nat) => (l, f l)))).length).map (fun (i : Nat) =>
        g i ((Spec.panelPlies row ((List.range m).map (fun (l : Nat) => (l, f l)))).getD i 0))).sum ∧
    (Spec.panelPlies row ((List.range m).map (fun (l : Nat) => (l, f l)))).length = Spec.plyCount row m := by
  induction m with
  | zero => simp [Spec.panelPlies, Spec.plyCount]
  | succ m ih =>
    obtain ⟨i1, i2⟩ := ih (by omega)
    have hx : row.getD m (-1) = row[m]'(by omega) := by
      rw [List.getD_eq_getElem?_getD, List.getElem?_eq_getElem (by omega)]; rfl
    have hge := hrow (row[m]'(by omega)) (List.getElem_mem _)
    have hcnt : Spec.plyCount row (m + 1) = Spec.plyCount row m + (if 0 ≤ row.getD m (-1) then 1 else 0) := by
      unfold Spec.plyCount
      rw [List.take_succ, List.countP_append, List.getElem?_eq_getElem (by omega), hx]
      simp only [Option.toList_some, List.countP_singleton]
      congr 1
      by_cases h0 : 0 ≤ row[m]'(by omega)
      · rw [if_pos h0, if_pos]
        simp only [bne_iff_ne, ne_eq]
        omega
      · rw [if_neg h0, if_neg]
        simp only [bne_iff_ne, ne_eq, not_not]
        omega
    have hpp : Spec.panelPlies row ((List.range (m + 1)).map (fun (l : Nat) => (l, f l))) =
        Spec.panelPlies row ((List.range m).map (fun (l : Nat) => (l, f l))) ++
          (if 0 ≤ row.getD m (-1) then [f m] else []) := by
      unfold Spec.panelPlies
      rw [List.range_succ, List.map_append, List.filter_append, List.map_append]
      congr 1
      by_cases h0 : 0 ≤ row.getD m (-1)
      · rw [if_pos h0]
        simp only [List.map_cons, List.map_nil, List.filter_cons, decide_eq_true h0, if_true, List.filter_nil]
      · rw [if_neg h0]
        simp only [List.map_cons, List.map_nil, List.filter_cons, decide_eq_false h0, Bool.false_eq_true, if_false,
          List.filter_nil]
    rw [hpp, hcnt, List.range_succ, List.map_append, List.sum_append, i1]
    by_cases h0 : 0 ≤ row.getD m (-1)
    · simp only [if_pos h0, List.length_append, List.length_singleton, i2, List.map_cons, List.map_nil, List.sum_singleton,
        and_true]
      rw [List.range_succ, List.map_append, List.sum_append]
      congr 1
      · congr 1
        apply List.map_congr_left
        intro i hi
        rw [List.mem_range] at hi
        rw [List.getD_append _ _ _ _ (by omega)]
      · simp only [List.map_cons, List.map_nil, List.sum_singleton]
        rw [List.getD_append_right _ _ _ _ (by omega), i2]
        simp
    · simp only [if_neg h0, List.append_nil, i2, List.map_cons, List.map_nil, List.sum_singleton, add_zero, and_true]

/-- The search of the angles of symmetric laminates with the partial lamination parameters of lampam_matrix.py: one row of
the layout per panel, with one column per ply of the thickest panel (`N` plies); the first half of the row of a panel with `n`
plies has `⌈n/2⌉` plies. -/
structure SymSearch (P : Problem Lampams) (cs : Int → Nat → ℚ) (plies : List Nat) (N : Nat) : Prop where
  sym : P.c.sym = true
  order : P.indices = calcPlyOrder true N
  pos : 0 < N
  panels : P.nPanels = plies.length
  entries : ∀ row ∈ P.pdl, ∀ x ∈ row, -1 ≤ x
  rows : ∀ (ip n : Nat), plies[ip]? = some n → 0 < n ∧ ∃ row : Stack, P.pdl[ip]? = some row ∧ (N + 1) / 2 ≤ row.length ∧
    Spec.plyCount row ((N + 1) / 2) = (n + 1) / 2
  matrix : ∀ (ip n : Nat) (row : Stack) (a : Int), plies[ip]? = some n → P.pdl[ip]? = some row → ∃ out,
    lampamMatrixRow true n cs row P.indices.length a = .ok out ∧
    ∀ (l : Nat), l < P.indices.length → out[l]? = some (P.contrib ip a l)
  objBound : ∀ o q, P.objMp o = .ok q → -6666 < q

theorem pi_sum_apply {ι : Type} (l : List (ι → ℚ × ℚ × ℚ)) (k : ι) : l.sum k = (l.map (fun v => v k)).sum := by
  induction l with
  | nil => rfl
  | cons x l ih => simp [ih]

theorem fst_sum (l : List (ℚ × ℚ × ℚ)) : l.sum = ((l.map (·.1)).sum, (l.map (·.2.1)).sum, (l.map (·.2.2)).sum) := by
  induction l with
  | nil => rfl
  | cons x l ih => rw [List.sum_cons, ih]; rfl

/-- C63: at the end of the beam search for symmetric laminates, the lamination parameters stored for a node and a panel are
those of the laminate assembled for this panel from the plies of the node; the coupling ones are zero. -/
theorem C63_search_lampams (P : Problem Lampams) (cs : Int → Nat → ℚ) (plies : List Nat) (N : Nat)
    (S : SymSearch P cs plies N) (t : Tabs Lampams) (h : beamSearch P = .ok t) (i : Nat) (bot : List Stack)
    (hbot : t.bots[i]? = some bot) (ip n : Nat) (hip : plies[ip]? = some n) :
    ∃ (lps : List Lampams) (v : Lampams) (b s : Stack), t.lampams[i]? = some lps ∧ lps[ip]? = some v ∧ bot[ip]? = some b ∧
      assembleSym b n = .ok s ∧ s.length = n ∧ Spec.Symmetric s ∧
      ∀ k : Nat, v k = (Spec.lampamA (fun a => cs a k) s, 0, Spec.lampamD (fun a => cs a k) s) ∧
        Spec.lampamB (fun a => cs a k) s = 0 := by
  have hidx : P.indices = List.range ((N + 1) / 2) := by rw [S.order]; exact (C19_ply_order N).1
  have hNpos := S.pos
  obtain ⟨designs, rfl, hd, _⟩ := C53_beam_search_coherent P t (by
    rw [hidx]
    intro e
    have := congrArg List.length e
    simp at this
    omega) S.objBound h
  simp only [tabsOf, List.getElem?_map] at hbot
  obtain ⟨x, hx, hxb⟩ := Option.map_eq_some_iff.1 hbot
  obtain ⟨dd, hdd, rfl⟩ := Option.map_eq_some_iff.1 hx
  obtain ⟨d, x⟩ := dd
  obtain ⟨hdl, hdes⟩ := hd _ (List.mem_of_getElem? hdd)
  dsimp only at hdl hdes hxb
  rw [hidx, List.length_range] at hdl
  have hipP : ip < P.nPanels := by rw [S.panels]; exact (List.getElem?_eq_some_iff.1 hip).1
  obtain ⟨hn, row, hrow, hlen, hcount⟩ := S.rows ip n hip
  have hgetrow : P.pdl.getD ip [] = row := by rw [List.getD_eq_getElem?_getD, hrow]; rfl
  let f : Nat → Int := fun l => d.getD l 0
  have hchoice : P.indices.zip d = (List.range ((N + 1) / 2)).map (fun (l : Nat) => (l, f l)) := by
    rw [hidx]
    apply List.ext_getElem?
    intro l
    rw [List.getElem?_map]
    by_cases hl : l < (N + 1) / 2
    · have hz : ((List.range ((N + 1) / 2)).zip d)[l]? = some (l, d[l]'(by omega)) :=
        List.getElem?_zip_eq_some.2 ⟨List.getElem?_range hl, List.getElem?_eq_getElem (by omega : l < d.length)⟩
      rw [List.getElem?_range hl, hz]
      simp only [Option.map_some, f, List.getD_eq_getElem?_getD, List.getElem?_eq_getElem (by omega : l < d.length),
        Option.getD_some]
    · rw [List.getElem?_eq_none (by simp; omega), List.getElem?_eq_none (by simp; omega)]
      rfl
  let b := Spec.panelPlies row ((List.range ((N + 1) / 2)).map (fun (l : Nat) => (l, f l)))
  have hb : x.bot[ip]? = some b := by
    rw [hdes.bot, List.getElem?_map, List.getElem?_range hipP, Option.map_some, hgetrow,
      List.filter_eq_self.2 (by intro p _; simp [S.sym]), hchoice]
  have hrange : ∀ y ∈ row, -1 ≤ y := S.entries row (List.mem_of_getElem? hrow)
  obtain ⟨k1, k2⟩ := counted_sum (V := Lampams) (fun (j : Nat) (a : Int) (k : Nat) =>
    deltaLampam true n (momAreas true n (calcPlyOrder true n)) j (cs a k)) row f hrange ((N + 1) / 2) hlen
  have hbl : b.length = (n + 1) / 2 := by rw [← hcount]; exact k2
  obtain ⟨s, a1, a2, a3, a4, a5⟩ := (C40_symmetric_assembly b n).1 hbl
  have hlp : x.lp[ip]? = some ((P.indices.zip d).map (fun (p : Nat × Int) => P.contrib ip p.2 p.1)).sum := by
    rw [hdes.lp, List.getElem?_map, List.getElem?_range hipP, Option.map_some]
  refine ⟨x.lp, _, b, s, by simp [tabsOf, List.getElem?_map, hdd], hlp, by rw [← hxb]; exact hb, a1, a3, a4, fun k => ?_⟩
  have hcontrib : (P.indices.zip d).map (fun (p : Nat × Int) => P.contrib ip p.2 p.1) =
      (List.range ((N + 1) / 2)).map (fun (l : Nat) => if 0 ≤ row.getD l (-1) then (fun (k : Nat) =>
        deltaLampam true n (momAreas true n (calcPlyOrder true n)) (Spec.plyCount row l) (cs (f l) k) : Lampams) else 0) := by
    rw [hchoice, List.map_map]
    apply List.map_congr_left
    intro l hl
    rw [List.mem_range] at hl
    obtain ⟨out, o1, o2⟩ := S.matrix ip n row (f l) hip hrow
    have hi : P.indices.length = (N + 1) / 2 := by rw [hidx, List.length_range]
    have o2 := o2 l (by omega)
    unfold lampamMatrixRow at o1
    rw [hi, if_pos hlen] at o1
    obtain ⟨_, w⟩ := lampamRowLoop_spec _ _ _ _ o1
    have hrl : (row.take ((N + 1) / 2))[l]? = some (row[l]'(by omega)) := by
      rw [List.getElem?_take, if_pos hl, List.getElem?_eq_getElem (by omega)]
    obtain ⟨w1, w2⟩ := w l _ hrl
    have hg : row.getD l (-1) = row[l]'(by omega) := by
      rw [List.getD_eq_getElem?_getD, List.getElem?_eq_getElem (by omega)]; rfl
    have hge := hrange (row[l]'(by omega)) (List.getElem_mem _)
    have hpc : Spec.plyCount (row.take ((N + 1) / 2)) l = Spec.plyCount row l := by
      unfold Spec.plyCount
      rw [List.take_take, Nat.min_eq_left (by omega)]
    simp only [Function.comp_apply]
    rw [hg]
    by_cases h0 : row[l]'(by omega) = -1
    · rw [w1 h0] at o2
      rw [if_neg (by omega)]
      exact (Option.some.inj o2).symm
    · obtain ⟨v, v1, v2⟩ := w2 h0
      rw [v2] at o2
      rw [if_pos (by omega), ← Option.some.inj o2]
      rw [Nat.zero_add, hpc] at v1
      unfold plyLampams at v1
      rw [if_pos (rfl : true = true)] at v1
      split at v1
      · exact (Except.ok.inj v1).symm
      · cases v1
  rw [hcontrib, k1, pi_sum_apply, List.map_map]
  have hss : s.reverse = s := a4
  have hget : ∀ (j : Nat), j < (n + 1) / 2 → s.getD j 0 = b.getD j 0 := by
    intro j hj
    have : b[j]? = s[j]? := by rw [← a5, List.getElem?_take, if_pos hj]
    rw [List.getD_eq_getElem?_getD, List.getD_eq_getElem?_getD, this]
  have hhalf : halfUp n = (n + 1) / 2 := by unfold halfUp; omega
  obtain ⟨c1, c2, c3, c4⟩ := C50_symmetric n hn s a3 hss (fun a => cs a k)
  have hparts : (List.range (Spec.panelPlies row ((List.range ((N + 1) / 2)).map (fun (l : Nat) => (l, f l)))).length).map
      ((fun (v : Lampams) => v k) ∘ fun (i : Nat) => fun (k : Nat) => deltaLampam true n (momAreas true n (calcPlyOrder true n)) i
        (cs ((Spec.panelPlies row ((List.range ((N + 1) / 2)).map (fun (l : Nat) => (l, f l)))).getD i 0) k)) =
      (List.range (halfUp n)).map (fun i => deltaLampam true n (momAreas true n (calcPlyOrder true n)) i (cs (s.getD i 0) k)) := by
    rw [hhalf]
    rw [show (Spec.panelPlies row ((List.range ((N + 1) / 2)).map (fun (l : Nat) => (l, f l)))).length = (n + 1) / 2 from hbl]
    apply List.map_congr_left
    intro j hj
    rw [List.mem_range] at hj
    simp only [Function.comp_apply]
    rw [hget j hj]
  refine ⟨?_, c4⟩
  rw [hparts, fst_sum, c1, c2, c3, c4]


theorem sum_ones (l : List (Nat × Int)) (w : Nat × Int → ℚ) (h : ∀ p ∈ l, w p = 1) : (l.map w).sum = (l.length : ℚ) := by
  induction l with
  | nil => rfl
  | cons p l ih =>
    rw [List.map_cons, List.sum_cons, h p List.mem_cons_self, ih (fun q hq => h q (List.mem_cons_of_mem _ hq))]
    push_cast [List.length_cons]
    ring

theorem count_filter (l : List (Nat × Int)) (x : Int) (q : Nat × Int → Bool) (h : ∀ p ∈ l, (q p = true ↔ p.2 = x)) :
    (l.filter q).length = (l.map Prod.snd).count x := by
  rw [← List.countP_eq_length_filter, List.count, List.countP_map]
  apply List.countP_congr
  intro p hp
  simp [h p hp]

/-- C63: the ply counts stored for a node and a panel are half those of the laminate assembled for this panel (for a structure
whose panels all have a middle ply, or none; the ply of the last level is the middle ply of every panel). -/
theorem C63_search_counts (a : ConsArgs) (P : Problem Lampams) (hc : mkConstraints a = .ok P.c) (cs : Int → Nat → ℚ)
    (plies : List Nat) (N : Nat) (S : SymSearch P cs plies N) (t : Tabs Lampams) (h : beamSearch P = .ok t) (i : Nat)
    (bot : List Stack) (hbot : t.bots[i]? = some bot) (ip n : Nat) (hip : plies[ip]? = some n)
    (hmid : P.hasMiddle = decide (n % 2 = 1))
    (hlast : n % 2 = 1 → ∀ row : Stack, P.pdl[ip]? = some row → row[(N + 1) / 2 - 1]? ≠ some (-1)) :
    ∃ (cnts : List (List ℚ)) (cnt : List ℚ) (b s : Stack), t.counts[i]? = some cnts ∧ cnts[ip]? = some cnt ∧
      bot[ip]? = some b ∧ assembleSym b n = .ok s ∧ cnt.length = P.c.angles.length ∧
      ∀ (j : Nat) (x : Int), P.c.angles[j]? = some x → ∃ q, cnt[j]? = some q ∧ 2 * q = (s.count x : ℚ) := by
  have hidx : P.indices = List.range ((N + 1) / 2) := by rw [S.order]; exact (C19_ply_order N).1
  have hNpos := S.pos
  have hne : P.indices ≠ [] := by
    rw [hidx]
    intro e
    have := congrArg List.length e
    simp at this
    omega
  obtain ⟨designs, rfl, hd, _⟩ := C53_beam_search_coherent P t hne S.objBound h
  obtain ⟨ns, hns, hall⟩ := search_allowed hc S.objBound h
  simp only [tabsOf, List.getElem?_map] at hbot
  obtain ⟨x, hx, hxb⟩ := Option.map_eq_some_iff.1 hbot
  obtain ⟨dd, hdd, rfl⟩ := Option.map_eq_some_iff.1 hx
  obtain ⟨d, x⟩ := dd
  obtain ⟨hdl, hdes⟩ := hd _ (List.mem_of_getElem? hdd)
  dsimp only at hdl hdes hxb
  rw [hidx, List.length_range] at hdl
  have hipP : ip < P.nPanels := by rw [S.panels]; exact (List.getElem?_eq_some_iff.1 hip).1
  obtain ⟨hn, row, hrow, hlen, hcount⟩ := S.rows ip n hip
  have hgetrow : P.pdl.getD ip [] = row := by rw [List.getD_eq_getElem?_getD, hrow]; rfl
  have hrange : ∀ y ∈ row, -1 ≤ y := S.entries row (List.mem_of_getElem? hrow)
  set L := (P.indices.zip d).filter (fun p => decide (0 ≤ row.getD p.1 (-1))) with hL
  have hb : x.bot[ip]? = some (L.map Prod.snd) := by
    rw [hdes.bot, List.getElem?_map, List.getElem?_range hipP, Option.map_some, hgetrow,
      List.filter_eq_self.2 (by intro p _; simp [S.sym])]
    rfl
  have hallowed : ∀ y ∈ L.map Prod.snd, y ∈ P.c.angles := by
    intro y hy
    have hbs : ns.map Node.bot = (designs.map Prod.snd).map Node.bot := congrArg Tabs.bots hns.symm
    have h1 : ((designs.map Prod.snd).map Node.bot)[i]? = some x.bot := by simp [hdd]
    rw [← hbs, List.getElem?_map] at h1
    obtain ⟨x', hx', e⟩ := Option.map_eq_some_iff.1 h1
    exact (hall x' (List.mem_of_getElem? hx')).1 ip _ (by rw [e]; exact hb) y hy
  obtain ⟨lps, v, b', s, r1, r2, r3, r4, r5, r6, _⟩ := C63_search_lampams P cs plies N S _ h i x.bot
    (by simp [tabsOf, hdd]) ip n hip
  rw [hb] at r3
  cases r3
  have hbl := (C40_symmetric_assembly (L.map Prod.snd) n).2 ⟨s, r4⟩
  obtain ⟨s', w1, w2, _⟩ := (C40_symmetric_assembly (L.map Prod.snd) n).1 hbl
  rw [r4] at w1
  cases w1
  have hcnt : x.cnt[ip]? = some ((List.range P.c.nAngles).map (fun (j : Nat) => ((L.filter (fun (p : Nat × Int) =>
      decide (P.c.indAngles.lookup p.2 = some j))).map (fun (p : Nat × Int) => plyWeight P p.1)).sum)) := by
    rw [hdes.cnt, List.getElem?_map, List.getElem?_range hipP, Option.map_some, hgetrow]
    congr 1
    apply List.map_congr_left
    intro j _
    rw [hL, List.filter_filter]
    congr 2
    apply List.filter_congr
    intro p _
    exact Bool.and_comm _ _
  have hnA := (C14_angles a P.c hc).2.2.2.1
  refine ⟨x.cnt, _, _, s, by simp [tabsOf, hdd], hcnt, by rw [← hxb]; exact hb, r4, by simp [hnA], fun j y hj => ?_⟩
  have hjl : j < P.c.nAngles := by rw [hnA]; exact (List.getElem?_eq_some_iff.1 hj).1
  refine ⟨_, by rw [List.getElem?_map, List.getElem?_range hjl]; rfl, ?_⟩
  have hq : ∀ p ∈ L, (decide (P.c.indAngles.lookup p.2 = some j) = true ↔ p.2 = y) := by
    intro p hp
    rw [decide_eq_true_iff, C14_dict a P.c hc]
    have hpa := hallowed p.2 (List.mem_map_of_mem hp)
    constructor
    · rintro (e | ⟨e, _⟩)
      · rw [hj] at e; exact (Option.some.inj e).symm
      · have := (C14_angles a P.c hc).2.2.2.2.1 p.2 hpa
        omega
    · rintro rfl
      exact Or.inl hj
  by_cases hodd : n % 2 = 1
  · -- the last column holds the middle ply
    have hM : P.hasMiddle = true := by rw [hmid]; simp [hodd]
    have hl2 : (N + 1) / 2 = ((N + 1) / 2 - 1) + 1 := by omega
    set m := (N + 1) / 2 - 1 with hm
    have hdm : d = d.dropLast ++ [d.getD m 0] := by
      have hdne : d ≠ [] := by rintro rfl; simp at hdl; omega
      conv_lhs => rw [← List.dropLast_append_getLast hdne]
      congr 2
      rw [List.getLast_eq_getElem, List.getD_eq_getElem?_getD, List.getElem?_eq_getElem (by omega)]
      simp only [Option.getD_some]
      congr 1
      omega
    have hzip : P.indices.zip d = (List.range m).zip d.dropLast ++ [(m, d.getD m 0)] := by
      rw [hidx, hl2, List.range_succ]
      conv_lhs => rw [hdm]
      rw [List.zip_append (by simp; omega)]
      rfl
    have hcov : 0 ≤ row.getD m (-1) := by
      have hmr : m < row.length := by omega
      have h1 := hlast hodd row hrow
      rw [List.getElem?_eq_getElem hmr] at h1
      have h2 := hrange (row[m]) (List.getElem_mem _)
      rw [List.getD_eq_getElem?_getD, List.getElem?_eq_getElem hmr, Option.getD_some]
      have h3 : row[m] ≠ -1 := fun e => h1 (by rw [e])
      omega
    set L' := ((List.range m).zip d.dropLast).filter (fun p => decide (0 ≤ row.getD p.1 (-1))) with hL'
    have hLL : L = L' ++ [(m, d.getD m 0)] := by
      rw [hL, hzip, List.filter_append, List.filter_cons, if_pos (by simpa using hcov), List.filter_nil]
    have hw : ∀ p ∈ L', plyWeight P p.1 = 1 := by
      intro p hp
      unfold plyWeight
      rw [if_neg]
      rintro ⟨e, _⟩
      rw [hidx, hl2, List.range_succ, List.getLast?_append] at e
      simp at e
      have h1 := (List.mem_filter.1 hp).1
      have h2 := (List.of_mem_zip (a := p.1) (b := p.2) h1).1
      rw [List.mem_range] at h2
      omega
    have hwl : plyWeight P m = 1 / 2 := by
      unfold plyWeight
      rw [if_pos]
      refine ⟨?_, hM⟩
      rw [hidx, hl2, List.range_succ, List.getLast?_append]
      simp
    have hsc : (s.count y : ℚ) = 2 * ((L'.map Prod.snd).count y : ℚ) + (if d.getD m 0 = y then 1 else 0) := by
      rw [w2, decide_eq_true hodd]
      unfold Spec.mirrored
      rw [if_pos rfl, hLL]
      simp only [List.map_append, List.map_cons, List.map_nil, List.dropLast_concat, List.count_append, List.count_reverse,
        List.count_singleton, beq_iff_eq]
      push_cast
      split_ifs <;> ring
    beta_reduce
    rw [hsc, hLL, List.filter_append, List.map_append, List.sum_append,
      sum_ones _ _ (fun p hp => hw p (List.mem_filter.1 hp).1),
      count_filter L' y _ (fun p hp => hq p (by rw [hLL]; exact List.mem_append_left _ hp))]
    have hql := hq (m, d.getD m 0) (by rw [hLL]; simp)
    by_cases he : d.getD m 0 = y
    · rw [if_pos he, List.filter_cons, if_pos (hql.2 he)]
      simp [hwl]
      ring
    · rw [if_neg he, List.filter_cons, if_neg (fun hh => he (hql.1 hh))]
      simp
  · have hM : P.hasMiddle = false := by rw [hmid]; simp [hodd]
    beta_reduce
    rw [sum_ones _ _ (fun p _ => by unfold plyWeight; rw [if_neg]; rw [hM]; simp), count_filter L y _ hq, w2,
      decide_eq_false hodd]
    unfold Spec.mirrored
    rw [if_neg (by decide), List.count_append, List.count_reverse]
    push_cast
    ring

/-! ### Examples -/

theorem lampamRowLoop_ok (d : Nat → Py Lampams) (row : Stack) : ∀ (k : Nat),
    (∀ (i : Nat), i < k + row.countP (fun x => x != -1) → ∃ v, d i = .ok v) → ∃ out, lampamRowLoop d row k = .ok out := by
  induction row with
  | nil => exact fun k _ => ⟨[], rfl⟩
  | cons x row ih =>
    intro k h
    unfold lampamRowLoop
    by_cases hx : x ≠ -1
    · rw [if_pos hx]
      have hcnt : (x :: row).countP (fun x => x != -1) = row.countP (fun x => x != -1) + 1 := by
        rw [List.countP_cons, if_pos (by simpa using hx)]
      obtain ⟨v, hv⟩ := h k (by omega)
      obtain ⟨out, ho⟩ := ih (k + 1) (fun i hi => h i (by omega))
      exact ⟨v :: out, by simp only [bind_ok]; exact ⟨v, hv, out, ho, rfl⟩⟩
    · rw [if_neg hx]
      have hcnt : (x :: row).countP (fun x => x != -1) = row.countP (fun x => x != -1) := by
        rw [List.countP_cons, if_neg (by simpa using hx), Nat.add_zero]
      obtain ⟨out, ho⟩ := ih k (fun i hi => h i (by omega))
      exact ⟨0 :: out, by simp only [bind_ok]; exact ⟨out, ho, rfl⟩⟩

/-- The partial lamination parameters as a function. -/
def matrixContrib (sym : Bool) (plies : List Nat) (cs : Int → Nat → ℚ) (pdl : Table) (nOpt : Nat) (ip : Nat) (a : Int) (l : Nat) :
    Lampams :=
  match lampamMatrixRow sym (plies.getD ip 0) cs (pdl.getD ip []) nOpt a with
  | .ok out => out.getD l 0
  | .error _ => 0

/-- They are defined when the row has as many plies as the panel. -/
theorem matrixContrib_ok (sym : Bool) (plies : List Nat) (cs : Int → Nat → ℚ) (pdl : Table) (nOpt ip n : Nat) (row : Stack) (a : Int)
    (h1 : plies[ip]? = some n) (h2 : pdl[ip]? = some row) (h3 : nOpt ≤ row.length)
    (h4 : (row.take nOpt).countP (fun x => x != -1) ≤ if sym then halfUp n else n) :
    ∃ out, lampamMatrixRow sym n cs row nOpt a = .ok out ∧
      ∀ (l : Nat), l < nOpt → out[l]? = some (matrixContrib sym plies cs pdl nOpt ip a l) := by
  obtain ⟨out, ho⟩ := lampamRowLoop_ok (plyLampams sym n cs a) (row.take nOpt) 0 (fun i hi => by
    unfold plyLampams
    rw [if_pos (by omega)]
    exact ⟨_, rfl⟩)
  have e : lampamMatrixRow sym n cs row nOpt a = .ok out := by
    unfold lampamMatrixRow
    rw [if_pos h3, ho]
  refine ⟨out, e, fun l hl => ?_⟩
  have hlen := (lampamRowLoop_spec _ _ _ _ ho).1
  rw [List.length_take, Nat.min_eq_left h3] at hlen
  unfold matrixContrib
  rw [List.getD_eq_getElem?_getD, List.getD_eq_getElem?_getD, h1, h2]
  simp only [Option.getD_some]
  rw [e]
  simp [List.getD_eq_getElem?_getD, List.getElem?_eq_getElem (by omega : l < out.length)]

/-- Trigonometric functions of the examples: the cosine of twice the angle. -/
def cosTwice (a : Int) (_ : Nat) : ℚ := if a = 0 then 1 else if a = 90 then -1 else 0

/-- Two symmetric panels of 3 and 5 plies. -/
def symExample (c : Cons) : Problem Lampams where
  c := c
  rule := 0
  nPanels := 2
  indices := [0, 1, 2]
  pdl := [[0, -1, 2, -1, 4], [0, 1, 2, 3, 4]]
  thick := 1
  hasMiddle := true
  contrib := matrixContrib true [3, 5] cosTwice [[0, -1, 2, -1, 4], [0, 1, 2, 3, 4]] 3
  objPanels := fun _ l => .ok (l.map (fun (v : Lampams) => |(v 0).2.2 - 1 / 2|))
  objMp := fun l => .ok l.sum.num.natAbs
  localLimit := 2
  localLimitFinal := 2
  globalLimit := 3
  globalLimitFinal := 3

set_option maxRecDepth 4000 in
/-- The hypotheses of the two theorems are met, and the search has results. -/
example : ∃ c t, mkConstraints { sym := true } = .ok c ∧ SymSearch (symExample c) cosTwice [3, 5] 5 ∧
    beamSearch (symExample c) = .ok t ∧ t.bots.length = 3 ∧
    (∀ n ∈ [3, 5], (symExample c).hasMiddle = decide (n % 2 = 1)) ∧
    ∀ row ∈ (symExample c).pdl, row[(5 + 1) / 2 - 1]? ≠ some (-1) := by
  obtain ⟨c, hc, ht⟩ := ok_of_test (mkConstraints { sym := true }) (fun (c : Cons) => c.sym && match beamSearch (symExample c) with
    | .ok t => decide (t.bots.length = 3)
    | .error _ => false) (by decide +kernel)
  rw [Bool.and_eq_true] at ht
  obtain ⟨h1, h2⟩ := ht
  split at h2
  · rename_i t e
    refine ⟨c, t, hc, ?_, e, of_decide_eq_true h2, by show ∀ n ∈ [3, 5], true = decide (n % 2 = 1); decide,
      by show ∀ row ∈ [[0, -1, 2, -1, 4], [0, 1, 2, 3, 4]], _; decide⟩
    exact {
      sym := h1
      order := by show [0, 1, 2] = calcPlyOrder true 5; decide
      pos := by decide
      panels := rfl
      entries := by show ∀ row ∈ [[0, -1, 2, -1, 4], [0, 1, 2, 3, 4]], _; decide
      rows := by
        intro ip n h
        match ip, h with
        | 0, h | 1, h =>
          have h := Option.some.inj h
          subst h
          exact ⟨by decide, _, rfl, by decide, by decide⟩
        | k + 2, h => simp at h
      matrix := by
        intro ip n row a h h'
        match ip, h, h' with
        | 0, h, h' | 1, h, h' =>
          have h1 := Option.some.inj h
          have h2 := Option.some.inj h'
          exact matrixContrib_ok true [3, 5] cosTwice _ 3 _ n row a h h' (by rw [← h2]; decide) (by rw [← h1, ← h2]; decide)
        | k + 2, h, _ => simp at h
      objBound := by
        intro o q h
        have h := Except.ok.inj h
        rw [← h]
        have : (0 : ℚ) ≤ (o.sum.num.natAbs : ℚ) := by positivity
        linarith }
  · cases h2

/-! ### Asymmetric laminates -/

/-- One asymmetric panel of 4 plies. -/
def asymExample (c : Cons) : Problem Lampams where
  c := c
  rule := 0
  nPanels := 1
  indices := calcPlyOrder false 4
  pdl := [[0, 1, 2, 3]]
  thick := 0
  hasMiddle := false
  contrib := matrixContrib false [4] cosTwice [[0, 1, 2, 3]] 4
  objPanels := fun _ l => .ok (l.map (fun (v : Lampams) => (v 0).2.2))
  objMp := fun l => .ok (l.sum + 10)
  localLimit := 4
  localLimitFinal := 4
  globalLimit := 50
  globalLimitFinal := 50

/-- C63 (violated for asymmetric laminates): the lamination parameters stored for a node of the search are not those of the
laminate assembled from its plies. -/
theorem C63_asymmetric_violation : ∃ (c : Cons) (t : Tabs Lampams) (i : Nat) (bot top : List Stack) (lps : List Lampams)
    (v : Lampams) (b u s : Stack), mkConstraints {} = .ok c ∧ c.sym = false ∧ beamSearch (asymExample c) = .ok t ∧
    t.bots[i]? = some bot ∧ t.tops[i]? = some top ∧ t.lampams[i]? = some lps ∧ lps[0]? = some v ∧ bot[0]? = some b ∧
    top[0]? = some u ∧ assembleAsym b u 4 = .ok s ∧ (v 0).2.2 ≠ Spec.lampamD (fun a => cosTwice a 0) s := by
  obtain ⟨c, hc, ht⟩ := ok_of_test (mkConstraints {}) (fun (c : Cons) => ! c.sym && match beamSearch (asymExample c) with
    | .ok t => (List.range 50).any (fun (i : Nat) =>
        match t.bots[i]?, t.tops[i]?, t.lampams[i]? with
        | some [b], some [u], some [v] => match assembleAsym b u 4 with
          | .ok s => decide ((v 0).2.2 ≠ Spec.lampamD (fun a => cosTwice a 0) s)
          | .error _ => false
        | _, _, _ => false)
    | .error _ => false) (by decide +kernel)
  rw [Bool.and_eq_true, Bool.not_eq_true'] at ht
  obtain ⟨h1, h2⟩ := ht
  split at h2
  · rename_i t e
    rw [List.any_eq_true] at h2
    obtain ⟨i, _, h2⟩ := h2
    split at h2
    · rename_i b u v e1 e2 e3
      split at h2
      · rename_i s e4
        exact ⟨c, t, i, _, _, _, v, b, u, s, hc, h1, e, e1, e2, e3, rfl, rfl, rfl, e4, of_decide_eq_true h2⟩
      · cases h2
    · cases h2
  · cases h2

end Bella
