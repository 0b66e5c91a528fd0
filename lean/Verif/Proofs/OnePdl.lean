import Verif.Model.OnePdl
import Verif.Props.RepairMp
import Verif.Props.Search
import Verif.Props.Assembly
import Verif.Props.Reduced
/-
The steps of `BELLA_optimiser_one_pdl` put together.
-/
namespace Bella

/-! ### The angles chosen by the beam search -/

theorem keepIf_mem (f : Int → Py Bool) (l r : List Int) (h : keepIf f l = .ok r) : ∀ x ∈ r, x ∈ l := by
  induction l generalizing r with
  | nil => cases h; simp
  | cons a t ih =>
    rw [keepIf, bind_ok] at h
    obtain ⟨r', h1, h2⟩ := h
    rw [bind_ok] at h2
    obtain ⟨b, _, h3⟩ := h2
    simp only [pure, Except.pure, Except.ok.injEq] at h3
    have := ih r' h1
    subst h3
    intro x hx
    split at hx
    · rcases List.mem_cons.1 hx with rfl | hx
      · exact List.mem_cons_self
      · exact List.mem_cons_of_mem _ (this x hx)
    · exact List.mem_cons_of_mem _ (this x hx)

theorem noneIfEmpty_eq (l r : List Int) (h : noneIfEmpty l = some r) : r = l := by
  unfold noneIfEmpty at h
  split at h
  · cases h
  · cases h; rfl

theorem pruneDiso_mem (child : List Int) (bot top : Stack) (level n : Nat) (c : Cons)
    (r : List Int) (h : pruneDiso child bot top level n c = .ok r) : ∀ x ∈ r, x ∈ child := by
  unfold pruneDiso at h
  have hf : ∀ (p q : Int → Bool) (l : List Int), ∀ x ∈ (l.filter p).filter q, x ∈ l := fun p q l x hx =>
    List.mem_of_mem_filter (List.mem_of_mem_filter hx)
  have hf1 : ∀ (p : Int → Bool) (l : List Int), ∀ x ∈ l.filter p, x ∈ l := fun p l x hx => List.mem_of_mem_filter hx
  split at h
  · split at h
    · dsimp only at h
      split at h
      · split at h
        · split at h
          · cases h
          · cases h; exact hf _ _ _
        · split at h
          · cases h
          · cases h; exact hf1 _ _
      · split at h
        · cases h; exact hf1 _ _
        · cases h; exact fun x hx => hx
    · dsimp only at h
      split at h
      · split at h
        · split at h
          · cases h
          · cases h; exact hf _ _ _
        · split at h
          · cases h
          · cases h; exact hf1 _ _
      · split at h
        · cases h; exact hf1 _ _
        · cases h; exact fun x hx => hx
  · cases h; exact fun x hx => hx

theorem pruneRules_mem (child : List Int) (bot top : Stack) (level n : Nat) (c : Cons) (hm : Bool)
    (r : List Int) (h : pruneRules child bot top level n c hm = .ok (some r)) : ∀ x ∈ r, x ∈ child := by
  unfold pruneRules at h
  rw [bind_ok] at h
  obtain ⟨l, h1, h⟩ := h
  have h0 := pruneDiso_mem _ _ _ _ _ _ _ h1
  split at h
  · cases h
  · split at h
    · rw [bind_ok] at h
      obtain ⟨l2, h2, h3⟩ := h
      simp only [pure, Except.pure, Except.ok.injEq] at h3
      have e := noneIfEmpty_eq _ _ h3
      subst e
      intro x hx
      apply h0
      unfold pruneContig at h2
      split at h2
      · split at h2
        · exact keepIf_mem _ _ _ h2 x hx
        · cases h2; exact hx
      · split at h2
        · exact keepIf_mem _ _ _ h2 x hx
        · split at h2
          · cases h2; exact hx
          · cases h2
    · cases h; exact h0

theorem damTolSecond_mem (rule : Int) (c : Cons) (m : Int) (child : List Int) :
    ∀ x ∈ damTolSecond rule c m child, x ∈ child := by
  unfold damTolSecond
  split
  · exact fun x hx => List.mem_of_mem_filter hx
  · split
    · exact fun x hx => List.mem_of_mem_filter hx
    · exact fun x hx => hx

/-- The orientations kept by the pruning are allowed ones, or 0 and 90 for a middle ply. -/
theorem pruning_mem (child : List Int) (bot top : Stack) (level n : Nat) (c : Cons) (rule : Int)
    (hm : Bool) (r : List Int) (h : pruning child bot top level n c rule hm = .ok (some r)) :
    ∀ x ∈ r, x ∈ child ∨ x = 0 ∨ x = 90 := by
  unfold pruning at h
  dsimp only at h
  have hch : ∀ x ∈ (if c.sym = true ∧ level = n - 1 ∧ hm = true then ([0, 90] : List Int) else child),
      x ∈ child ∨ x = 0 ∨ x = 90 := by
    split
    · intro x hx
      right
      simpa using hx
    · exact fun x hx => Or.inl hx
  generalize (if c.sym = true ∧ level = n - 1 ∧ hm = true then ([0, 90] : List Int) else child) = l at *
  intro x hx
  apply hch
  split at h
  · split at h
    · rw [Except.ok.injEq] at h
      rw [noneIfEmpty_eq _ _ h] at hx
      exact List.mem_of_mem_filter hx
    · split at h
      · rw [bind_ok] at h
        obtain ⟨m, _, h⟩ := h
        simp only [pure, Except.pure, Except.ok.injEq] at h
        rw [noneIfEmpty_eq _ _ h] at hx
        exact damTolSecond_mem _ _ _ _ x hx
      · split at h
        · split at h
          · cases h
          · rw [Except.ok.injEq] at h
            rw [noneIfEmpty_eq _ _ h] at hx
            exact damTolSecond_mem _ _ _ _ x hx
        · exact pruneRules_mem _ _ _ _ _ _ _ _ h x hx
  · exact pruneRules_mem _ _ _ _ _ _ _ _ h x hx

section
variable {V : Type} [AddMonoid V]

/-- The plies of a node of the beam search have allowed angles. -/
def PliesAllowed (P : Problem V) (x : Node V) : Prop :=
  (∀ (ip : Nat) (s : Stack), x.bot[ip]? = some s → ∀ y ∈ s, y ∈ P.c.angles) ∧
  (∀ (ip : Nat) (s : Stack), x.top[ip]? = some s → ∀ y ∈ s, y ∈ P.c.angles)

theorem dict_allowed {a : ConsArgs} {c : Cons} (hc : mkConstraints a = .ok c) {x : Int} {j : Nat}
    (hx : x ≠ -90) (h : dictGet c.indAngles x = .ok j) : x ∈ c.angles := by
  rw [dictGet_eq_ok] at h
  rcases (C14_dict a c hc x j).1 h with h | ⟨h, _⟩
  · exact List.mem_of_getElem? h
  · exact absurd h hx

/-- A ply added to a panel is an allowed one: its count is updated. -/
theorem child_allowed {a : ConsArgs} {P : Problem V} (hc : mkConstraints a = .ok P.c) {level : Nat} {last : Bool}
    {m x : Node V} {y : Int} (h : ChildOf P level last m y x) (hm : PliesAllowed P m) : PliesAllowed P x := by
  have hy : y ≠ -90 := by
    obtain ⟨gb, gt, ss, _, _, h1, h2⟩ := h.kept
    rcases pruning_mem _ _ _ _ _ _ _ _ _ h1 y h2 with h3 | h3 | h3
    · have := (C14_angles a P.c hc).2.2.2.2.1 y h3
      rintro rfl
      revert this
      decide
    · rw [h3]; decide
    · rw [h3]; decide
  have hcov : ∀ ip, ip < P.nPanels → covers P.pdl level ip = .ok true → y ∈ P.c.angles := by
    intro ip hip hcv
    have h1 := mapM_inv _ _ _ h.cnt
    have hl := h1.length_eq
    rw [List.length_range] at hl
    have h2 := List.Forall₂.get h1 (i := ip) (by simpa using hip) (by omega)
    simp only [List.get_eq_getElem, List.getElem_range, bind_ok] at h2
    obtain ⟨row, _, b, hb, h2⟩ := h2
    rw [hcv] at hb
    cases hb
    rw [if_pos rfl, bind_ok] at h2
    obtain ⟨j, hj, _⟩ := h2
    exact dict_allowed hc hy hj
  have hlay := h.lay
  unfold childStacks at hlay
  split at hlay
  · obtain ⟨b, h1, h2⟩ := bind_ok.1 hlay
    simp only [pure, Except.pure, Except.ok.injEq, Prod.mk.injEq] at h2
    obtain ⟨rfl, h2⟩ := h2
    refine ⟨fun ip s hs z hz => ?_, by rw [← h2]; exact hm.2⟩
    have h3 := mapM_inv _ _ _ h1
    have hl := h3.length_eq
    rw [List.length_range] at hl
    have hip := (List.getElem?_eq_some_iff.1 hs).1
    have h4 := List.Forall₂.get h3 (i := ip) (by simp; omega) hip
    simp only [List.get_eq_getElem, List.getElem_range, bind_ok] at h4
    obtain ⟨s0, g1, cv, g2, g3⟩ := h4
    rw [List.getElem?_eq_getElem hip, Option.some.injEq] at hs
    simp only [pure, Except.pure, Except.ok.injEq] at g3
    rw [← hs, ← g3] at hz
    rw [pyGet_eq_ok] at g1
    cases cv
    · exact hm.1 _ _ g1 z hz
    · rcases List.mem_append.1 hz with hz | hz
      · exact hm.1 _ _ g1 z hz
      · rw [List.mem_singleton] at hz
        subst hz
        exact hcov ip (by omega) g2
  · obtain ⟨b, h1, h2⟩ := bind_ok.1 hlay
    simp only [pure, Except.pure, Except.ok.injEq, Prod.mk.injEq] at h2
    obtain ⟨h2, rfl⟩ := h2
    refine ⟨by rw [← h2]; exact hm.1, fun ip s hs z hz => ?_⟩
    have h3 := mapM_inv _ _ _ h1
    have hl := h3.length_eq
    rw [List.length_range] at hl
    have hip := (List.getElem?_eq_some_iff.1 hs).1
    have h4 := List.Forall₂.get h3 (i := ip) (by simp; omega) hip
    simp only [List.get_eq_getElem, List.getElem_range, bind_ok] at h4
    obtain ⟨s0, g1, cv, g2, g3⟩ := h4
    rw [List.getElem?_eq_getElem hip, Option.some.injEq] at hs
    simp only [pure, Except.pure, Except.ok.injEq] at g3
    rw [← hs, ← g3] at hz
    rw [pyGet_eq_ok] at g1
    cases cv
    · exact hm.2 _ _ g1 z hz
    · rcases List.mem_cons.1 hz with hz | hz
      · subst hz
        exact hcov ip (by omega) g2
      · exact hm.2 _ _ g1 z hz

theorem root_allowed (P : Problem V) : PliesAllowed P (rootNode P) := by
  constructor
  all_goals
    intro ip s hs y hy
    have : s ∈ List.replicate P.nPanels ([] : Stack) := List.mem_of_getElem? hs
    rw [List.mem_replicate] at this
    rw [this.2] at hy
    cases hy

/-- All the nodes at the end of the search consist of allowed plies. -/
theorem search_allowed {a : ConsArgs} {P : Problem V} (hc : mkConstraints a = .ok P.c)
    (hobj : ∀ o q, P.objMp o = .ok q → -6666 < q) {t : Tabs V} (h : beamSearch P = .ok t) :
    ∃ ns : List (Node V), t = tabsOf ns ∧ ∀ x ∈ ns, PliesAllowed P x := by
  rw [beamSearch, initTabs_eq] at h
  obtain ⟨ns, h1, h2⟩ := searchLevels_inv P hobj (fun _ ns => ∀ x ∈ ns, PliesAllowed P x)
    (by
      intro done level ns ns' hpre hI c1 _ _ _ x hx
      obtain ⟨m, hm, y, hy⟩ := c1 x hx
      exact child_allowed hc hy (hI m hm))
    P.indices [] [rootNode P] t (by simp) (by
      intro x hx
      rw [List.mem_singleton] at hx
      subst hx
      exact root_allowed P) h
  exact ⟨ns, h1, h2⟩

end

/-! ### Assembly -/

theorem assembleSym_ok {b s : Stack} {n : Nat} (h : assembleSym b n = .ok s) :
    s.length = n ∧ Spec.Symmetric s ∧ ∀ y ∈ s, y ∈ b := by
  obtain ⟨s', h1, h2, h3, h4, _⟩ := (C40_symmetric_assembly b n).1 ((C40_symmetric_assembly b n).2 ⟨s, h⟩)
  rw [h] at h1
  cases h1
  refine ⟨h3, h4, fun y hy => ?_⟩
  rw [h2] at hy
  unfold Spec.mirrored at hy
  rcases List.mem_append.1 hy with hy | hy
  · exact hy
  · split at hy
    · exact List.dropLast_subset _ (List.mem_reverse.1 hy)
    · exact List.mem_reverse.1 hy

theorem assembleAsym_ok {b t s : Stack} {n : Nat} (h : assembleAsym b t n = .ok s) :
    s.length = n ∧ s = b ++ t := by
  unfold assembleAsym at h
  split at h
  · cases h
  · rename_i hl
    cases h
    exact ⟨by simpa using hl, rfl⟩

/-- The assembled laminates have the right numbers of plies, consist of the plies of the node and are symmetric for
symmetric laminates. -/
theorem assembleNode_ok {O : OneSetup} {bot top ss : List Stack} (h : assembleNode O bot top = .ok ss) :
    ss.length = O.S.r.nPlies.length ∧ ∀ (p n : Nat), O.S.r.nPlies[p]? = some n → ∃ s, ss[p]? = some s ∧ s.length = n ∧
      (O.S.c.sym = true → Spec.Symmetric s) ∧
      ∀ y ∈ s, (∃ b, bot[p]? = some b ∧ y ∈ b) ∨ (∃ t, top[p]? = some t ∧ y ∈ t) := by
  have h1 := mapM_inv _ _ _ h
  have hl := h1.length_eq
  rw [List.length_range] at hl
  refine ⟨hl.symm, fun p n hn => ?_⟩
  have hp := (List.getElem?_eq_some_iff.1 hn).1
  have h2 := List.Forall₂.get h1 (i := p) (by simpa using hp) (by omega)
  simp only [List.get_eq_getElem, List.getElem_range, bind_ok] at h2
  obtain ⟨n', g1, b, g2, h2⟩ := h2
  rw [pyGet_eq_ok] at g1 g2
  rw [hn] at g1
  cases g1
  refine ⟨ss[p]'(by omega), List.getElem?_eq_getElem _, ?_⟩
  by_cases hs : O.S.c.sym = true
  · rw [if_pos hs] at h2
    obtain ⟨k1, k2, k3⟩ := assembleSym_ok h2
    exact ⟨k1, fun _ => k2, fun y hy => Or.inl ⟨b, g2, k3 y hy⟩⟩
  · rw [if_neg hs] at h2
    obtain ⟨t, g3, h2⟩ := bind_ok.1 h2
    rw [pyGet_eq_ok] at g3
    obtain ⟨k1, k2⟩ := assembleAsym_ok h2
    refine ⟨k1, fun h => absurd h hs, fun y hy => ?_⟩
    rw [k2, List.mem_append] at hy
    exact hy.imp (fun hy => ⟨b, g2, hy⟩) (fun hy => ⟨t, g3, hy⟩)

/-! ### The loop over the nodes -/

theorem repairNodes_ok {O : OneSetup} {pdl : Table} {w : Nat} : ∀ {nodes : List (List Stack × List Stack)}
    {ds : List Design}, repairNodes O pdl w nodes = some (.ok ds) →
    List.Forall₂ (fun (x : List Stack × List Stack) (d : Design) => repairNode O pdl w x.1 x.2 = some (.ok d)) nodes ds := by
  intro nodes
  induction nodes with
  | nil =>
    intro ds h
    simp only [repairNodes, Option.some.injEq, Except.ok.injEq] at h
    subst h
    exact .nil
  | cons x rest ih =>
    intro ds h
    obtain ⟨bot, top⟩ := x
    rw [repairNodes] at h
    split at h
    · cases h
    · cases h
    · rename_i d hd
      split at h
      · cases h
      · cases h
      · rename_i ds' hds
        have h := Except.ok.inj (Option.some.inj h)
        subst h
        exact .cons hd (ih hds)

/-- The parts of an evaluated design. -/
theorem repairNode_ok {O : OneSetup} {pdl : Table} {w : Nat} {bot top : List Stack} {d : Design}
    (h : repairNode O pdl w bot top = some (.ok d)) :
    ∃ (ss : List Stack) (r : MpResult) (p : Penalties), assembleNode O bot top = .ok ss ∧
      repairMp O.R O.ipoOk O.S ss pdl w = some (.ok r) ∧
      d.success = r.success ∧ d.ss = r.ss ∧ d.sst = r.sst ∧ d.pdl = r.pdl ∧ d.lampams = r.ss.map O.S.lampam ∧
      calcPlyCounts O.S.c O.S.r.nPlies.length d.ss = .ok d.counts ∧
      calcPenalties O d.ss d.lampams d.counts = .ok p ∧ designObjs O d.success d.lampams = .ok d.objsNo ∧
      designObj O d.objsNo p = .ok d.obj := by
  unfold repairNode at h
  split at h
  · cases h
  · rename_i ss hss
    split at h
    · cases h
    · cases h
    · rename_i r hr
      have h := Option.some.inj h
      unfold evalDesign at h
      dsimp only at h
      obtain ⟨counts, h1, h⟩ := bind_ok.1 h
      obtain ⟨p, h2, h⟩ := bind_ok.1 h
      obtain ⟨objs, h3, h⟩ := bind_ok.1 h
      obtain ⟨obj, h4, h⟩ := bind_ok.1 h
      have h := Except.ok.inj h
      subst h
      exact ⟨ss, r, p, hss, hr, rfl, rfl, rfl, rfl, rfl, h1, h2, h3, h4⟩

/-- The selected design is one of the designs, with the smallest objective. -/
theorem finishOne_ok {O : OneSetup} {nPanels : Nat} {ds : List Design} {res : OneResult}
    (h : finishOne O false nPanels ds = .ok (some res)) :
    ∃ d ∈ ds, (∀ d' ∈ ds, d.obj ≤ d'.obj) ∧
      finishDesign O nPanels d.ss d.sst d.pdl d.lampams d.counts d.objsNo d.obj = .ok res := by
  unfold finishOne at h
  obtain ⟨sel, h1, h⟩ := bind_ok.1 h
  have hne : ds.map (fun (d : Design) => d.obj) ≠ [] := by
    intro e
    rw [List.map_eq_nil_iff] at e
    subst e
    have : sel = none := by
      have h1 : Except.ok none = (Except.ok sel : Py _) := h1
      exact (Except.ok.inj h1).symm
    subst this
    cases h
  obtain ⟨i, s, t, l, c, o, g1, g2, g3, g4, g5, g6, g7⟩ := C55_selected_design false (ds.map (fun (d : Design) => d.ss))
    (ds.map (fun (d : Design) => (d.sst, d.pdl))) (ds.map (fun (d : Design) => (d.lampams, d.objsNo)))
    (ds.map (fun (d : Design) => d.counts)) (ds.map (fun (d : Design) => d.obj)) hne (by simp) (by simp) (by simp) (by simp)
    (by simp)
  rw [g1] at h1
  have h1 := Except.ok.inj h1
  subst h1
  rw [List.getElem?_map] at g2 g3 g4 g5 g6
  obtain ⟨d, hd, _⟩ := Option.map_eq_some_iff.1 g2
  rw [hd, Option.map_some, Option.some.injEq] at g2 g3 g4 g5 g6
  subst g2 g3 g4 g5 g6
  dsimp only at h
  obtain ⟨r, h2, h⟩ := bind_ok.1 h
  have h := Option.some.inj (Except.ok.inj h)
  subst h
  refine ⟨d, List.mem_of_getElem? hd, fun d' hd' => g7 _ (List.mem_map.2 ⟨d', hd', rfl⟩), h2⟩

end Bella
