import Verif.Model.SuccessRates
import Verif.Props.OnePdl
/-
C85: the counters of the results (numbers of designs after each step of the repair, of distinct designs and of candidates
evaluated by the search).
-/
namespace Bella

variable {V : Type} [Zero V] [Add V]

/-! ### The candidates evaluated -/

/-- The number of orientations that the pruning allows for the ply of this level in a node. -/
def candidates (P : Problem V) (level : Nat) (m : Node V) : Nat :=
  match m.bot[P.thick]?, m.top[P.thick]? with
  | some gb, some gt =>
    match pruning P.c.angles gb gt level P.indices.length P.c P.rule P.hasMiddle with
    | .ok (some ss) => ss.length
    | _ => 0
  | _, _ => 0

theorem candidates_le (P : Problem V) (level : Nat) (m : Node V) : candidates P level m ≤ max P.c.angles.length 2 := by
  unfold candidates
  split
  · split
    · rename_i h
      exact pruning_length _ _ _ _ _ _ _ _ _ h
    · omega
  · omega

theorem branchCalls_ok {P : Problem V} {level : Nat} {last : Bool} {m : Node V} {ns : List (Node V)} {t' : Tabs V}
    (h : branchNode P level last (tabsOf (m :: ns)) = .ok t') :
    branchCalls P level (tabsOf (m :: ns)) = .ok (candidates P level m) := by
  obtain ⟨gb, gt, r, h1, h2, h3⟩ := branchNode_ok_get P level last m ns t' h
  unfold branchCalls candidates
  have hg : ∀ {α : Type} (x : α) (l : List α), pyGet (x :: l) 0 = .ok x := fun x l => rfl
  simp only [tabsOf, List.map_cons, hg]
  rw [h1, h2]
  dsimp only
  rw [h3]
  have e1 : pyGet m.bot P.thick = .ok gb := pyGet_eq_ok.2 h1
  have e2 : pyGet m.top P.thick = .ok gt := pyGet_eq_ok.2 h2
  show (do let guideBot ← pyGet m.bot P.thick
           let guideTop ← pyGet m.top P.thick
           let ss ← pruning P.c.angles guideBot guideTop level P.indices.length P.c P.rule P.hasMiddle
           return (ss.getD []).length) = _
  rw [e1]
  show (do let guideTop ← pyGet m.top P.thick
           let ss ← pruning P.c.angles gb guideTop level P.indices.length P.c P.rule P.hasMiddle
           return (ss.getD []).length) = _
  rw [e2]
  show (do let ss ← pruning P.c.angles gb gt level P.indices.length P.c P.rule P.hasMiddle
           return (ss.getD []).length) = _
  rw [h3]
  cases r <;> rfl

theorem nodesCalls_ok {P : Problem V} {level : Nat} {last : Bool} (hobj : ∀ o q, P.objMp o = .ok q → -6666 < q) :
    ∀ (old new : List (Node V)) {t' : Tabs V}, branchNodes P level last old.length (tabsOf (old ++ new)) = .ok t' →
    nodesCalls P level last old.length (tabsOf (old ++ new)) = .ok (old.map (candidates P level)).sum ∧
    t'.objs.length ≤ new.length + (old.map (candidates P level)).sum := by
  intro old
  induction old with
  | nil =>
    intro new t' h
    simp only [List.length_nil, branchNodes, Except.ok.injEq, List.nil_append] at h
    exact ⟨rfl, by simp [← h, tabsOf]⟩
  | cons m old ih =>
    intro new t' h
    simp only [List.length_cons, branchNodes, bind_ok, List.cons_append] at h
    obtain ⟨t1, h1, h2⟩ := h
    have hc := branchCalls_ok h1
    obtain ⟨gb, gt, r, hgb, hgt, hr⟩ := branchNode_ok_get P level last m _ t1 h1
    obtain ⟨n1, rfl, hn1, hch, hno⟩ := branchNode_inv P level last m (old ++ new) t1 hobj h1
    have hlen : n1.length ≤ candidates P level m := by
      unfold candidates
      rw [hgb, hgt]
      dsimp only
      rw [hr]
      cases r with
      | none => rw [hno gb gt hgb hgt hr]; simp
      | some ss => exact (hch gb gt ss hgb hgt hr).1
    rw [List.append_assoc] at h2
    obtain ⟨g1, g2⟩ := ih (new ++ n1) h2
    constructor
    · simp only [List.length_cons, nodesCalls, List.cons_append, bind_ok]
      refine ⟨_, hc, _, h1, _, by rw [List.append_assoc]; exact g1, ?_⟩
      simp [pure, Except.pure]
    · simp only [List.map_cons, List.sum_cons, List.length_append] at g2 ⊢
      omega

/-- The levels of a search: from the nodes at the first level to those after the last one, with the number of candidates
(a node and an orientation allowed for its next ply). -/
inductive Explores (P : Problem V) : List Nat → List (Node V) → List (Node V) → Nat → Prop
  | done (ns : List (Node V)) : Explores P [] ns ns 0
  | level (l : Nat) (ls : List Nat) (ns ns' final : List (Node V)) (n : Nat) :
      searchLevel P l (tabsOf ns) = .ok (tabsOf ns') → Explores P ls ns' final n →
      Explores P (l :: ls) ns final ((ns.map (candidates P l)).sum + n)

theorem searchLevel_calls {P : Problem V} (hobj : ∀ o q, P.objMp o = .ok q → -6666 < q) {level : Nat} {ns ns' : List (Node V)}
    (h : searchLevel P level (tabsOf ns) = .ok (tabsOf ns')) :
    nodesCalls P level (decide (P.indices.getLast? = some level)) (tabsOf ns).objs.length (tabsOf ns) =
      .ok (ns.map (candidates P level)).sum ∧ 0 < (ns.map (candidates P level)).sum ∧
      ns'.length ≤ (ns.map (candidates P level)).sum := by
  have hl : ∀ l : List (Node V), (tabsOf l).objs.length = l.length := fun l => by simp [tabsOf]
  unfold searchLevel at h
  simp only [bind_ok] at h
  obtain ⟨t1, h1, h2⟩ := h
  rw [hl] at h1 ⊢
  have h1'' : branchNodes P level (decide (P.indices.getLast? = some level)) ns.length (tabsOf (ns ++ [])) = .ok t1 := by
    rw [List.append_nil]; exact h1
  obtain ⟨g1, g2⟩ := nodesCalls_ok hobj ns [] h1''
  rw [List.append_nil] at g1
  obtain ⟨n1, rfl, _, _, _⟩ := branchNodes_inv P level _ ns [] t1 hobj h1''
  rw [List.nil_append] at h2 g2
  split at h2
  · cases h2
  · rename_i hne
    simp only [pure, Except.pure, Except.ok.injEq] at h2
    obtain ⟨ns2, e, hsub, _, _⟩ := globalPrune_tabsOf
      (if decide (P.indices.getLast? = some level) = true then P.globalLimitFinal else P.globalLimit) n1
    rw [e] at h2
    have h3 := congrArg (fun t : Tabs V => t.objs.length) h2
    rw [hl, hl] at h3
    have := hsub.length_le
    rw [List.length_nil] at g2
    rw [hl] at g2 hne
    exact ⟨g1, by omega, by omega⟩

theorem levelsCalls_ok {P : Problem V} (hobj : ∀ o q, P.objMp o = .ok q → -6666 < q) :
    ∀ (ls : List Nat) (ns : List (Node V)) {t : Tabs V}, searchLevels P ls (tabsOf ns) = .ok t →
    ∃ (final : List (Node V)) (n : Nat), t = tabsOf final ∧ levelsCalls P ls (tabsOf ns) = .ok n ∧ Explores P ls ns final n := by
  intro ls
  induction ls with
  | nil =>
    intro ns t h
    simp only [searchLevels, Except.ok.injEq] at h
    exact ⟨ns, 0, h.symm, rfl, .done ns⟩
  | cons l ls ih =>
    intro ns t h
    simp only [searchLevels, bind_ok] at h
    obtain ⟨t1, h1, h2⟩ := h
    obtain ⟨ns', rfl, _⟩ := searchLevel_inv P l ns t1 hobj h1
    obtain ⟨final, n, e1, e2, e3⟩ := ih ns' h2
    refine ⟨final, _, e1, ?_, .level l ls ns ns' final n h1 e3⟩
    simp only [levelsCalls, bind_ok]
    exact ⟨_, (searchLevel_calls hobj h1).1, _, h1, _, e2, rfl⟩

theorem sum_candidates_le (P : Problem V) (level : Nat) (ns : List (Node V)) :
    (ns.map (candidates P level)).sum ≤ max P.c.angles.length 2 * ns.length := by
  induction ns with
  | nil => simp
  | cons m ns ih =>
    have := candidates_le P level m
    simp only [List.map_cons, List.sum_cons, List.length_cons, Nat.mul_succ]
    omega

/-- A search explores at least one candidate per level, and no more than the limit of nodes allows. -/
theorem explores_bounds {P : Problem V} (hobj : ∀ o q, P.objMp o = .ok q → -6666 < q ∧ q < 6666) {ls : List Nat}
    {ns final : List (Node V)} {n : Nat} (h : Explores P ls ns final n) (hne : ls ≠ [])
    (hls : ∃ pre, P.indices = pre ++ ls) (hnd : P.indices.Nodup) :
    ls.length ≤ n ∧ final.length ≤ n ∧
      n ≤ max P.c.angles.length 2 * (ns.length + (ls.length - 1) * P.globalLimit) := by
  induction h with
  | done => exact absurd rfl hne
  | level l ls ns ns' final n h1 h2 ih =>
    obtain ⟨_, p1, p2⟩ := searchLevel_calls (fun o q h => (hobj o q h).1) h1
    have p3 := sum_candidates_le P l ns
    obtain ⟨pre, hpre⟩ := hls
    cases ls with
    | nil =>
      cases h2
      simp only [List.length_singleton, Nat.sub_self, Nat.zero_mul, Nat.add_zero]
      exact ⟨by omega, by omega, p3⟩
    | cons l' ls =>
      obtain ⟨q1, q2, q3⟩ := ih (by simp) ⟨pre ++ [l], by simp [hpre]⟩
      obtain ⟨ns2, e, _, _, hle, _⟩ := searchLevel_inv P l ns _ (fun o q h => (hobj o q h).1) h1
      have e2 : ns'.length = ns2.length := by
        have := congrArg (fun t : Tabs V => t.objs.length) e
        simpa [tabsOf] using this
      have hlast : P.indices.getLast? ≠ some l := by
        intro hl
        rw [hpre] at hl hnd
        rw [List.getLast?_append_of_ne_nil _ (by simp), List.getLast?_cons_cons] at hl
        have hm : l ∈ l' :: ls := List.mem_of_getLast? hl
        have := (List.nodup_append.1 hnd).2.1
        exact (List.nodup_cons.1 this).1 hm
      have hle := hle (fun o q h => (hobj o q h).2)
      rw [if_neg hlast] at hle
      have hle' : ns'.length ≤ P.globalLimit := by omega
      have hm : max P.c.angles.length 2 * (ns'.length + ((l' :: ls).length - 1) * P.globalLimit) ≤
          max P.c.angles.length 2 * (((l' :: ls).length) * P.globalLimit) := by
        apply Nat.mul_le_mul_left
        simp only [List.length_cons, Nat.add_sub_cancel, Nat.succ_mul]
        omega
      refine ⟨by rw [List.length_cons]; omega, by omega, ?_⟩
      simp only [List.length_cons, Nat.add_sub_cancel, Nat.mul_add] at q3 hm ⊢
      omega

/-- C85: `n_obj_func_calls` is the number of candidates (a kept node and an orientation that the guidelines allow for its next
ply), summed over the levels; at least one per level, at least the number of designs repaired, and at most the number of
orientations times (1 + (number of levels − 1) × `global_node_limit`): the cost of the search is linear in the number of plies. -/
theorem C85_evaluations (P : Problem V) (hobj : ∀ o q, P.objMp o = .ok q → -6666 < q ∧ q < 6666) (hne : P.indices ≠ [])
    (hnd : P.indices.Nodup) (t : Tabs V) (h : beamSearch P = .ok t) :
    ∃ (n : Nat) (root : Node V) (final : List (Node V)), searchCalls P = .ok n ∧ initTabs P = tabsOf [root] ∧ t = tabsOf final ∧
      Explores P P.indices [root] final n ∧
      P.indices.length ≤ n ∧ final.length ≤ n ∧
      n ≤ max P.c.angles.length 2 * (1 + (P.indices.length - 1) * P.globalLimit) := by
  let root : Node V := ⟨List.replicate P.nPanels [], List.replicate P.nPanels [], List.replicate P.nPanels 0,
    List.replicate P.nPanels (List.replicate P.c.nAngles 0), 0, List.replicate P.nPanels 0⟩
  have hroot : initTabs P = tabsOf [root] := rfl
  unfold beamSearch at h
  rw [hroot] at h
  obtain ⟨final, n, e1, e2, e3⟩ := levelsCalls_ok (fun o q h => (hobj o q h).1) P.indices [root] h
  obtain ⟨b1, b2, b3⟩ := explores_bounds hobj e3 hne ⟨[], rfl⟩ hnd
  exact ⟨n, root, final, by unfold searchCalls; rw [hroot]; exact e2, hroot, e1, e3, b1, b2, b3⟩

/-! ### The repairs -/

/-- The reference panel of the strip is repaired with success. -/
def RefRepaired (O : OneSetup) (pdl : Table) (w : Nat) (strip : List Stack) (sst : Table) (ss : List Stack) : Prop :=
  repairReferencePanel O.R O.ipoOk O.S.r.indRef strip pdl w = some (.ok (true, sst, ss))

/-- The design passes the repair of the reference panel. -/
def PassesRef (O : OneSetup) (pdl : Table) (w : Nat) (strip : List Stack) : Prop := ∃ sst ss, RefRepaired O pdl w strip sst ss

/-- The design passes the repair of the reference panel and that of the thinner panels. -/
def PassesThick (O : OneSetup) (pdl : Table) (w : Nat) (strip : List Stack) : Prop :=
  ∃ sst ss r2, RefRepaired O pdl w strip sst ss ∧ repairThickToThin O.S (ss.map O.S.lampam) sst ss = .ok (true, r2)

/-- The design passes the repairs of the reference panel, of the thinner and of the thicker panels. -/
def PassesThin (O : OneSetup) (pdl : Table) (w : Nat) (strip : List Stack) : Prop :=
  ∃ sst ss r2 r3, RefRepaired O pdl w strip sst ss ∧ repairThickToThin O.S (ss.map O.S.lampam) sst ss = .ok (true, r2) ∧
    repairThinToThick O.S r2.2.1 r2.1 r2.2.2 = .ok (true, r3)

/-- The outcome of a repair and the steps passed. -/
theorem repairMp_steps {O : OneSetup} {pdl : Table} {w : Nat} {strip : List Stack} {r : MpResult}
    (h : repairMp O.R O.ipoOk O.S strip pdl w = some (.ok r)) :
    (r.success = true ↔ PassesThin O pdl w strip) ∧
    (PassesThick O pdl w strip ↔ r.success = true ∨ (r.step ≠ 1 ∧ r.step ≠ 2)) ∧
    (PassesRef O pdl w strip ↔ r.success = true ∨ r.step ≠ 1) := by
  unfold repairMp at h
  split at h
  · cases h
  · cases h
  · rename_i sst1 ss1 h1
    have hn : ∀ sst ss, ¬ RefRepaired O pdl w strip sst ss := by
      intro sst ss h'
      unfold RefRepaired at h'
      rw [h1] at h'
      cases h'
    have h := Option.some.inj h
    unfold mpFail at h
    obtain ⟨sst, _, h⟩ := bind_ok.1 h
    have h := Except.ok.inj h
    subst h
    refine ⟨⟨fun h => (by cases h), ?_⟩, ⟨?_, fun h => ?_⟩, ⟨?_, fun h => ?_⟩⟩
    · rintro ⟨_, _, _, _, h', _⟩
      exact absurd h' (hn _ _)
    · rintro ⟨_, _, _, h', _⟩
      exact absurd h' (hn _ _)
    · simp at h
    · rintro ⟨_, _, h'⟩
      exact absurd h' (hn _ _)
    · simp at h
  · rename_i sst1 ss1 h1
    have h := Option.some.inj h
    have hu : ∀ sst ss, RefRepaired O pdl w strip sst ss → sst = sst1 ∧ ss = ss1 := by
      intro sst ss h'
      unfold RefRepaired at h'
      rw [h1] at h'
      cases h'
      exact ⟨rfl, rfl⟩
    have hr : PassesRef O pdl w strip := ⟨sst1, ss1, h1⟩
    unfold mpThin at h
    obtain ⟨ssRef, _, h⟩ := bind_ok.1 h
    obtain ⟨r2, h2, h⟩ := bind_ok.1 h
    obtain ⟨b2, r2⟩ := r2
    cases b2 with
    | false =>
      rw [if_neg (by simp)] at h
      unfold mpFail at h
      obtain ⟨sst, _, h⟩ := bind_ok.1 h
      have h := Except.ok.inj h
      subst h
      refine ⟨⟨fun h => (by cases h), ?_⟩, ⟨?_, fun h => ?_⟩, ⟨fun _ => Or.inr (by simp), fun _ => hr⟩⟩
      · rintro ⟨_, _, _, _, h', h2', _⟩
        obtain ⟨rfl, rfl⟩ := hu _ _ h'
        rw [h2] at h2'
        cases h2'
      · rintro ⟨_, _, _, h', h2'⟩
        obtain ⟨rfl, rfl⟩ := hu _ _ h'
        rw [h2] at h2'
        cases h2'
      · simp at h
    | true =>
      rw [if_pos rfl] at h
      obtain ⟨_, _, h⟩ := bind_ok.1 h
      have ht : PassesThick O pdl w strip := ⟨sst1, ss1, r2, h1, h2⟩
      unfold mpThick at h
      obtain ⟨r3, h3, h⟩ := bind_ok.1 h
      obtain ⟨b3, r3⟩ := r3
      cases b3 with
      | false =>
        rw [if_neg (by simp)] at h
        unfold mpFail at h
        obtain ⟨sst, _, h⟩ := bind_ok.1 h
        have h := Except.ok.inj h
        subst h
        refine ⟨⟨fun h => (by cases h), ?_⟩, ⟨fun _ => Or.inr (by simp), fun _ => ht⟩, ⟨fun _ => Or.inr (by simp), fun _ => hr⟩⟩
        rintro ⟨_, _, _, _, h', h2', h3'⟩
        obtain ⟨rfl, rfl⟩ := hu _ _ h'
        rw [h2] at h2'
        cases h2'
        rw [h3] at h3'
        cases h3'
      | true =>
        rw [if_pos rfl] at h
        obtain ⟨_, _, h⟩ := bind_ok.1 h
        obtain ⟨_, _, h⟩ := bind_ok.1 h
        have h := Except.ok.inj h
        subst h
        exact ⟨⟨fun _ => ⟨sst1, ss1, r2, r3, h1, h2, h3⟩, fun _ => rfl⟩, ⟨fun _ => Or.inl rfl, fun _ => ht⟩,
          ⟨fun _ => Or.inl rfl, fun _ => hr⟩⟩

theorem repairNode_steps {O : OneSetup} {pdl : Table} {w : Nat} {bot top : List Stack} {d : Design}
    (h : repairNode O pdl w bot top = some (.ok d)) :
    ∃ strip, assembleNode O bot top = .ok strip ∧ (d.success = true ↔ PassesThin O pdl w strip) ∧
    (PassesThick O pdl w strip ↔ d.success = true ∨ (d.step ≠ 1 ∧ d.step ≠ 2)) ∧
    (PassesRef O pdl w strip ↔ d.success = true ∨ d.step ≠ 1) := by
  unfold repairNode at h
  split at h
  · cases h
  · rename_i ss hss
    split at h
    · cases h
    · cases h
    · rename_i r hr
      have h := Option.some.inj h
      unfold evalDesign at h
      dsimp only at h
      obtain ⟨counts, h1, h⟩ := bind_ok.1 h
      obtain ⟨p, h2, h⟩ := bind_ok.1 h
      obtain ⟨objs, h3, h⟩ := bind_ok.1 h
      obtain ⟨obj, h4, h⟩ := bind_ok.1 h
      have h := Except.ok.inj h
      subst h
      exact ⟨ss, hss, repairMp_steps hr⟩

open Classical in
/-- The counters are the numbers of designs that pass the steps of the repair. -/
theorem countDesigns_eq {O : OneSetup} {pdl : Table} {w : Nat} {xs : List (List Stack × List Stack)} {ds : List Design}
    (h : List.Forall₂ (fun (x : List Stack × List Stack) (d : Design) => repairNode O pdl w x.1 x.2 = some (.ok d)) xs ds) :
    ∃ strips : List (List Stack),
      List.Forall₂ (fun (x : List Stack × List Stack) s => assembleNode O x.1 x.2 = .ok s) xs strips ∧
      strips.countP (fun s => decide (PassesThin O pdl w s)) = ds.countP (fun (d : Design) => d.success) ∧
      ∀ k : Counters, (ds.foldl countDesign k).lastLevel = k.lastLevel + xs.length ∧
      (ds.foldl countDesign k).afterRef = k.afterRef + strips.countP (fun s => decide (PassesRef O pdl w s)) ∧
      (ds.foldl countDesign k).afterThick = k.afterThick + strips.countP (fun s => decide (PassesThick O pdl w s)) ∧
      (ds.foldl countDesign k).afterThin = k.afterThin + strips.countP (fun s => decide (PassesThin O pdl w s)) ∧
      (ds.foldl countDesign k).calls = k.calls := by
  induction h with
  | nil => exact ⟨[], .nil, rfl, fun k => by simp⟩
  | @cons x d xs ds h1 _ ih =>
    obtain ⟨strips, f, f0, g⟩ := ih
    obtain ⟨s, e, q1, q2, q3⟩ := repairNode_steps h1
    refine ⟨s :: strips, .cons e f, ?_, fun k => ?_⟩
    · simp only [List.countP_cons, f0, decide_eq_true_eq, ← q1]
    obtain ⟨g1, g2, g3, g4, g5⟩ := g (countDesign k d)
    rw [List.foldl_cons, g1, g2, g3, g4, g5]
    simp only [List.countP_cons, List.length_cons, decide_eq_true_eq, q2, q3, ← q1]
    unfold countDesign
    cases hs : d.success with
    | true => simp; omega
    | false =>
      by_cases h1 : d.step = 1
      · simp [h1]; omega
      · by_cases h2 : d.step = 2
        · simp [h2]; omega
        · simp [h1, h2]; omega

theorem passes_mono {O : OneSetup} {pdl : Table} {w : Nat} {s : List Stack} :
    (PassesThin O pdl w s → PassesThick O pdl w s) ∧ (PassesThick O pdl w s → PassesRef O pdl w s) :=
  ⟨fun ⟨a, b, c, _, h1, h2, _⟩ => ⟨a, b, c, h1, h2⟩, fun ⟨a, b, _, h1, _⟩ => ⟨a, b, h1⟩⟩

theorem counters_inv {P : Problem V} {O : OneSetup} {save : Bool} {nPanels w : Nat} {k : Counters}
    (h : onePdlCounters P O save nPanels w = some (.ok (some k))) :
    ∃ t n ds res, beamSearch P = .ok t ∧ searchCalls P = .ok n ∧ repairNodes O P.pdl w (t.bots.zip t.tops) = some (.ok ds) ∧
      finishOne O save nPanels ds = .ok (some res) ∧
      k = { ds.foldl countDesign ⟨0, 0, 0, 0, 0, n⟩ with unique := uniqueTables save ds } := by
  unfold onePdlCounters at h
  split at h
  · cases h
  · cases h
  · rename_i t n ht hn
    split at h
    · cases h
    · cases h
    · rename_i ds hds
      split at h
      · cases h
      · cases h
      · rename_i res hres
        exact ⟨t, n, ds, res, ht, hn, hds, hres, (Option.some.inj (Except.ok.inj (Option.some.inj h))).symm⟩

open Classical in
/-- C85: the counters stored with a result.  Among the designs of the last level of the search (the strips assembled from its
nodes), `n_designs_last_level` counts them all, `n_designs_after_ss_ref_repair` those whose reference panel is repaired,
`n_designs_after_thick_to_thin` those that also pass the repair of the thinner panels, `n_designs_after_thin_to_thick` those
that pass all the repairs; each is at most the previous one; `n_obj_func_calls` is the number of candidates of the search. -/
theorem C85_counters (P : Problem V) (O : OneSetup) (save : Bool) (nPanels w : Nat) (k : Counters)
    (h : onePdlCounters P O save nPanels w = some (.ok (some k))) :
    ∃ (t : Tabs V) (strips : List (List Stack)), beamSearch P = .ok t ∧
      List.Forall₂ (fun (x : List Stack × List Stack) s => assembleNode O x.1 x.2 = .ok s) (t.bots.zip t.tops) strips ∧
      k.lastLevel = strips.length ∧
      k.afterRef = strips.countP (fun s => decide (PassesRef O P.pdl w s)) ∧
      k.afterThick = strips.countP (fun s => decide (PassesThick O P.pdl w s)) ∧
      k.afterThin = strips.countP (fun s => decide (PassesThin O P.pdl w s)) ∧
      k.afterThin ≤ k.afterThick ∧ k.afterThick ≤ k.afterRef ∧ k.afterRef ≤ k.lastLevel ∧
      searchCalls P = .ok k.calls := by
  obtain ⟨t, n, ds, res, h1, h2, h3, h4, rfl⟩ := counters_inv h
  obtain ⟨strips, f, _, g⟩ := countDesigns_eq (repairNodes_ok h3)
  obtain ⟨g1, g2, g3, g4, g5⟩ := g ⟨0, 0, 0, 0, 0, n⟩
  simp only [Nat.zero_add] at g1 g2 g3 g4
  refine ⟨t, strips, h1, f, ?_, g2, g3, g4, ?_, ?_, ?_, ?_⟩
  · exact g1.trans f.length_eq
  · rw [g3, g4]
    exact List.countP_mono_left (fun s _ hs => by rw [decide_eq_true_eq] at hs ⊢; exact passes_mono.1 hs)
  · rw [g2, g3]
    exact List.countP_mono_left (fun s _ hs => by rw [decide_eq_true_eq] at hs ⊢; exact passes_mono.2 hs)
  · rw [g2, g1, f.length_eq]
    exact List.countP_le_length
  · rw [g5]
    exact h2

/-- With `save_success_rate`, a result is returned only if a design has an objective below 1e10. -/
theorem kept_of_result {O : OneSetup} {nPanels : Nat} {ds : List Design} {res : OneResult}
    (h : finishOne O true nPanels ds = .ok (some res)) : ∃ d ∈ ds, d.obj < failObj := by
  by_contra hn
  push Not at hn
  unfold finishOne selectDesign at h
  simp only [if_true] at h
  have hk : (List.range (ds.map (fun (d : Design) => d.obj)).length).filter
      (fun i => decide ((ds.map (fun (d : Design) => d.obj)).getD i 0 < failObj)) = [] := by
    rw [List.filter_eq_nil_iff]
    intro i hi
    rw [List.mem_range] at hi
    rw [decide_eq_true_eq, List.getD_eq_getElem?_getD, List.getElem?_eq_getElem hi, Option.getD_some, List.getElem_map]
    exact not_lt.2 (hn _ (List.getElem_mem _))
  rw [hk] at h
  have hd : (List.range (ds.map (fun (d : Design) => d.obj)).length).filter (fun i => ! ([] : List Nat).contains i) =
      List.range (ds.map (fun (d : Design) => d.obj)).length := by
    rw [List.filter_eq_self]
    intro i _
    rfl
  rw [hd] at h
  have he : npDelete (List.range (ds.map (fun (d : Design) => d.obj)).length) (ds.map (fun (d : Design) => d.obj)) = [] := by
    unfold npDelete
    rw [List.map_eq_nil_iff, List.filter_eq_nil_iff]
    intro p hp
    have := List.mem_zipIdx hp
    simp only [Bool.not_eq_true', Bool.not_eq_false, List.contains_iff_mem, List.mem_range]
    omega
  rw [he] at h
  simp only [List.length_nil, if_true] at h
  cases h

/-- C85: with `save_success_rate`, `n_designs_repaired_unique` is the number of distinct stacking sequence tables among the
designs with an objective below 1e10; it is at least 1 and at most the number of designs that pass all the repairs.  Without it
the counter stays at 0. -/
theorem C85_unique (P : Problem V) (O : OneSetup) (save : Bool) (nPanels w : Nat) (k : Counters) (hn : O.S.r.nPlies ≠ [])
    (h : onePdlCounters P O save nPanels w = some (.ok (some k))) :
    (save = false → k.unique = 0) ∧
    (save = true → 1 ≤ k.unique ∧ k.unique ≤ k.afterThin ∧
      ∃ (t : Tabs V) (ds : List Design) (tables : List Table), beamSearch P = .ok t ∧
        List.Forall₂ (fun (x : List Stack × List Stack) (d : Design) => repairNode O P.pdl w x.1 x.2 = some (.ok d))
          (t.bots.zip t.tops) ds ∧ tables.Nodup ∧
        (∀ T, T ∈ tables ↔ ∃ d ∈ ds, d.obj < failObj ∧ d.sst = T) ∧ k.unique = tables.length) := by
  obtain ⟨t, n, ds, res, h1, h2, h3, h4, rfl⟩ := counters_inv h
  refine ⟨fun hs => ?_, fun hs => ?_⟩
  · subst hs
    rfl
  · subst hs
    obtain ⟨d0, hd0, ho⟩ := kept_of_result h4
    have hf := repairNodes_ok h3
    obtain ⟨strips, f, f0, g⟩ := countDesigns_eq hf
    obtain ⟨_, _, _, g4, _⟩ := g ⟨0, 0, 0, 0, 0, n⟩
    rw [Nat.zero_add] at g4
    have hm0 : d0 ∈ ds.filter (fun (d : Design) => decide (d.obj < failObj)) := List.mem_filter.2 ⟨hd0, by simpa using ho⟩
    have hkl : (ds.filter (fun (d : Design) => decide (d.obj < failObj))).length ≠ 0 :=
      (List.length_pos_of_mem hm0).ne'
    have hu : uniqueTables true ds =
        ((ds.filter (fun (d : Design) => decide (d.obj < failObj))).map (fun (d : Design) => d.sst)).dedup.length := by
      unfold uniqueTables
      rw [if_pos rfl, if_pos hkl]
    have hmem : ∀ T, T ∈ ((ds.filter (fun (d : Design) => decide (d.obj < failObj))).map (fun (d : Design) => d.sst)).dedup ↔
        ∃ d ∈ ds, d.obj < failObj ∧ d.sst = T := by
      intro T
      rw [List.mem_dedup, List.mem_map]
      constructor
      · rintro ⟨d, hd, e⟩
        obtain ⟨q1, q2⟩ := List.mem_filter.1 hd
        exact ⟨d, q1, by simpa using q2, e⟩
      · rintro ⟨d, q1, q2, e⟩
        exact ⟨d, List.mem_filter.2 ⟨q1, by simpa using q2⟩, e⟩
    have hpos : 0 < ((ds.filter (fun (d : Design) => decide (d.obj < failObj))).map
        (fun (d : Design) => d.sst)).dedup.length := List.length_pos_of_mem ((hmem _).2 ⟨d0, hd0, ho, rfl⟩)
    have hle : ((ds.filter (fun (d : Design) => decide (d.obj < failObj))).map
        (fun (d : Design) => d.sst)).dedup.length ≤ ds.countP (fun (d : Design) => d.success) := by
      refine (List.dedup_sublist _).length_le.trans ?_
      rw [List.length_map, ← List.countP_eq_length_filter]
      refine List.countP_mono_left (fun d hd hlt => ?_)
      obtain ⟨i, hi, e⟩ := List.getElem_of_mem hd
      have hq := List.Forall₂.get hf (i := i) (by rw [hf.length_eq]; exact hi) hi
      simp only [List.get_eq_getElem, e] at hq
      refine success_of_obj hn hq ?_
      rw [decide_eq_true_eq] at hlt
      exact hlt.ne
    refine ⟨?_, ?_, t, ds, _, h1, hf, List.nodup_dedup _, hmem, hu⟩
    · show 1 ≤ uniqueTables true ds
      rw [hu]
      exact hpos
    · show uniqueTables true ds ≤ (ds.foldl countDesign ⟨0, 0, 0, 0, 0, n⟩).afterThin
      rw [hu, g4, f0]
      exact hle

/-- C85: the counters come with the results: they are stored exactly when the optimisation returns a design. -/
theorem C85_returned (P : Problem V) (O : OneSetup) (save : Bool) (nPanels w : Nat) (hobj : ∀ o q, P.objMp o = .ok q → -6666 < q) :
    (∃ res, optimiserOnePdl P O save nPanels w = some (.ok (some res))) ↔
      ∃ k, onePdlCounters P O save nPanels w = some (.ok (some k)) := by
  constructor
  · rintro ⟨res, h⟩
    unfold optimiserOnePdl at h
    split at h
    · cases h
    · rename_i t ht
      split at h
      · cases h
      · cases h
      · rename_i ds hds
        have h := Option.some.inj h
        have ht' := ht
        unfold beamSearch at ht'
        let root : Node V := ⟨List.replicate P.nPanels [], List.replicate P.nPanels [], List.replicate P.nPanels 0,
          List.replicate P.nPanels (List.replicate P.c.nAngles 0), 0, List.replicate P.nPanels 0⟩
        have hroot : initTabs P = tabsOf [root] := rfl
        rw [hroot] at ht'
        obtain ⟨_, n, _, e2, _⟩ := levelsCalls_ok hobj P.indices [root] ht'
        have hc : searchCalls P = .ok n := by unfold searchCalls; rw [hroot]; exact e2
        refine ⟨{ ds.foldl countDesign ⟨0, 0, 0, 0, 0, n⟩ with unique := uniqueTables save ds }, ?_⟩
        unfold onePdlCounters
        rw [ht, hc]
        dsimp only
        rw [hds]
        dsimp only
        rw [h]
  · rintro ⟨k, h⟩
    obtain ⟨t, n, ds, res, h1, h2, h3, h4, rfl⟩ := counters_inv h
    refine ⟨res, ?_⟩
    unfold optimiserOnePdl
    rw [h1]
    dsimp only
    rw [h3]
    dsimp only
    rw [h4]

end Bella
