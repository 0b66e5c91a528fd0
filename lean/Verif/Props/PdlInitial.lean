import Verif.Props.PdlIni
/-
C42: initial ply drop layouts of complete laminates.
-/
namespace Bella

/-- Number of plies kept in a layout row. -/
theorem dropPositions_length (row : List Int) :
    (Spec.dropPositions row).length + row.countP (fun x => x != -1) = row.length := by
  induction row with
  | nil => simp [Spec.dropPositions]
  | cons x xs ih =>
    have h : (Spec.dropPositions (x :: xs)).length =
        (if x = -1 then 1 else 0) + (Spec.dropPositions xs).length := by
      unfold Spec.dropPositions
      rw [List.length_cons, List.range_succ_eq_map, List.filter_cons]
      simp only [List.getElem?_cons_zero, Option.some.injEq, decide_eq_true_eq, List.filter_map,
        Function.comp_def, Nat.succ_eq_add_one, List.getElem?_cons_succ]
      split <;> simp [Nat.add_comm]
    rw [h, List.countP_cons, List.length_cons]
    by_cases hx : x = -1
    · simp [hx]; omega
    · simp [hx]; omega

theorem countP_of_dropped {a b : List Int} (hl : a.length = b.length)
    (h : ∀ j : Nat, a[j]? = some (-1) ↔ b[j]? = some (-1)) :
    a.countP (fun x => x != -1) = b.countP (fun x => x != -1) := by
  have e : Spec.dropPositions a = Spec.dropPositions b := by
    unfold Spec.dropPositions
    rw [hl]
    exact List.filter_congr (fun j _ => by simp [h j])
  have h1 := dropPositions_length a
  have h2 := dropPositions_length b
  rw [e] at h1
  omega

/-- What is required of the layout of a group of `n` plies: `drops` lists the numbers of ply drops of the
panels. -/
def GroupLayout (n : Nat) (drops : List Nat) (t : Table) : Prop :=
  t.length = drops.length ∧
  (∀ (i nd : Nat), drops[i]? = some nd → ∃ row, t[i]? = some row ∧ row.length = n ∧
    (Spec.dropPositions row).length = nd) ∧
  ∀ (i k ni nk : Nat), drops[i]? = some ni → drops[k]? = some nk → ni ≤ nk →
    ∃ ri rk, t[i]? = some ri ∧ t[k]? = some rk ∧ Spec.Nested ri rk

/-- The draws of the schedule of a group are possible outcomes of `random.sample`. -/
def ValidGroupDraws (n : Nat) (drops : List Nat) (sched : List (Draw × Bool)) : Prop :=
  ∀ x ∈ sched, ValidDraw
    { nDrops := drops, nMax := n, pdlSpacing := false, minDrop := 0, sym := false, boundaries := [] } x.1

theorem firstLayout_spec (a : GroupArgs) (nAsked : Nat) (late0 : Bool) (sched : List (Draw × Bool))
    (t : Table) (hc : a.covTop = false ∧ a.covBottom = false)
    (hmid : (a.lastGroup && a.hasMiddle) = false) (hv : ValidGroupDraws a.nMax a.nDrops sched)
    (h : firstLayout (randomlyPdlGuide a nAsked late0 sched) = .ok (some t)) :
    GroupLayout a.nMax a.nDrops t := by
  unfold firstLayout at h
  obtain ⟨r, h1, h2⟩ := bind_ok.1 h
  cases r with
  | none => cases h2
  | some l =>
    cases l with
    | nil => cases h2
    | cons t' l =>
      simp only [pure, Except.pure, Except.ok.injEq, Option.some.injEq] at h2
      subst h2
      obtain ⟨x, hx, p, hg⟩ := C42_returned_layouts_are_generated _ _ _ _ _ _ h1 t' (by simp)
      have hv' : ValidDraw a x.1 := by
        obtain ⟨n, ms, v1, v2, v3, v4, v5⟩ := hv x hx
        refine ⟨n, ms, v1, v2, ?_, v4, v5⟩
        rw [hc.1, hc.2]
        exact v3
      obtain ⟨g1, g2⟩ := C42_random_layout a x.1 hv' hmid t' p hg
      refine ⟨g1, fun i nd hi => ?_, fun i k ni nk hi hk hle =>
        C42_random_layout_nested a x.1 hv' hmid t' p hg i k ni nk hi hk hle⟩
      obtain ⟨row, r1, r2, r3, _⟩ := g2 i nd hi
      exact ⟨row, r1, r2, r3⟩

/-- The groups built are layouts of the groups asked for. -/
def GroupsBuilt (s : StripData) (g : Nat) (m : Nat) (l : List (Option Table)) : Prop :=
  l.length = m ∧ ∀ k, k < m → ∃ t n d, l[k]? = some (some t) ∧ s.sizes[g + k]? = some n ∧
    s.drops[g + k]? = some d ∧ GroupLayout n d t

theorem groupsBuilt_cons {s : StripData} {g m : Nat} {l : List (Option Table)} {t : Table} {n : Nat}
    {d : List Nat} (h1 : s.sizes[g]? = some n) (h2 : s.drops[g]? = some d) (h3 : GroupLayout n d t)
    (h : GroupsBuilt s (g + 1) m l) : GroupsBuilt s g (m + 1) (some t :: l) := by
  refine ⟨by simp [h.1], fun k hk => ?_⟩
  cases k with
  | zero => exact ⟨t, n, d, rfl, h1, h2, h3⟩
  | succ k =>
    obtain ⟨t', n', d', e1, e2, e3, e4⟩ := h.2 k (by omega)
    refine ⟨t', n', d', by simpa using e1, ?_, ?_, e4⟩
    · rw [← e2]; congr 1; omega
    · rw [← e3]; congr 1; omega

/-- The draws of each group are possible outcomes. -/
def ValidDraws (s : StripData) (g : Nat) (sched : List (List (Draw × Bool))) : Prop :=
  ∀ (k : Nat) (sk : List (Draw × Bool)) (n : Nat) (d : List Nat), sched[k]? = some sk →
    s.sizes[g + k]? = some n → s.drops[g + k]? = some d → ValidGroupDraws n d sk

theorem validDraws_tail {s : StripData} {g : Nat} {x : List (Draw × Bool)}
    {sched : List (List (Draw × Bool))} (h : ValidDraws s g (x :: sched)) :
    ValidDraws s (g + 1) sched := by
  intro k sk n d h1 h2 h3
  refine h (k + 1) sk n d (by simpa using h1) ?_ ?_
  · rw [← h2]; congr 1; omega
  · rw [← h3]; congr 1; omega

theorem symGroups_spec (s : StripData) (hmid : s.hasMiddle = false) (sched : List (List (Draw × Bool)))
    (g : Nat) (prev : Option Table) (l : List (Option Table)) (hv : ValidDraws s g sched)
    (h : symGroups s g prev sched = .ok (some l)) : GroupsBuilt s g sched.length l := by
  induction sched generalizing g prev l with
  | nil =>
    simp only [symGroups, Except.ok.injEq, Option.some.injEq] at h
    subst h
    exact ⟨rfl, fun k hk => absurd hk (by simp)⟩
  | cons x sched ih =>
    unfold symGroups at h
    obtain ⟨n, h1, h⟩ := bind_ok.1 h
    obtain ⟨d, h2, h⟩ := bind_ok.1 h
    obtain ⟨r, h3, h⟩ := bind_ok.1 h
    rw [pyGet_eq_ok] at h1 h2
    cases r with
    | none => cases h
    | some t =>
      dsimp only at h
      obtain ⟨q, h4, h⟩ := bind_ok.1 h
      cases q with
      | none => cases h
      | some l' =>
        simp only [pure, Except.pure, Except.ok.injEq, Option.some.injEq] at h
        subst h
        exact groupsBuilt_cons h1 h2 (firstLayout_spec _ _ _ _ _ ⟨rfl, rfl⟩ (by simp [hmid])
          (hv 0 x n d rfl h1 h2) h3) (ih (g + 1) (some t) l' (validDraws_tail hv) h4)

theorem asymGroups_spec (s : StripData) (sched : List (List (Draw × Bool)))
    (g : Nat) (prev prev2 : Option Table) (l : List (Option Table)) (hv : ValidDraws s g sched)
    (h : asymGroups s g prev prev2 sched = .ok (some l)) : GroupsBuilt s g sched.length l := by
  induction sched generalizing g prev prev2 l with
  | nil =>
    simp only [asymGroups, Except.ok.injEq, Option.some.injEq] at h
    subst h
    exact ⟨rfl, fun k hk => absurd hk (by simp)⟩
  | cons x sched ih =>
    unfold asymGroups at h
    obtain ⟨n, h1, h⟩ := bind_ok.1 h
    obtain ⟨d, h2, h⟩ := bind_ok.1 h
    obtain ⟨r, h3, h⟩ := bind_ok.1 h
    rw [pyGet_eq_ok] at h1 h2
    cases r with
    | none => cases h
    | some t =>
      dsimp only at h
      obtain ⟨q, h4, h⟩ := bind_ok.1 h
      cases q with
      | none => cases h
      | some l' =>
        simp only [pure, Except.pure, Except.ok.injEq, Option.some.injEq] at h
        subst h
        exact groupsBuilt_cons h1 h2 (firstLayout_spec _ _ _ _ _ ⟨rfl, rfl⟩ (by simp)
          (hv 0 x n d rfl h1 h2) h3) (ih (g + 1) prev2 (some t) l' (validDraws_tail hv) h4)

/-! ### rows of the groups -/

/-- Plies of panel `i` in group `g`. -/
def keptIn (s : StripData) (i g : Nat) : Nat := s.sizes.getD g 0 - (s.drops.getD g []).getD i 0

theorem groupRow_spec (s : StripData) (g m : Nat) (l : List (Option Table)) (hb : GroupsBuilt s g m l)
    (i : Nat) (hi : ∀ d ∈ s.drops, i < d.length) (k : Nat) (hk : k < m) :
    (Spec.groupRow i (l.getD k none)).length = s.sizes.getD (g + k) 0 ∧
    (Spec.groupRow i (l.getD k none)).countP (fun x => x != -1) = keptIn s i (g + k) := by
  obtain ⟨t, n, d, h1, h2, h3, h4⟩ := hb.2 k hk
  have hid := hi d (List.mem_of_getElem? h3)
  obtain ⟨row, r1, r2, r3⟩ := h4.2.1 i d[i] (List.getElem?_eq_getElem hid)
  have hrow : Spec.groupRow i (l.getD k none) = row := by
    rw [List.getD_eq_getElem?_getD, h1]
    simp [Spec.groupRow, r1]
  rw [hrow]
  have h5 := dropPositions_length row
  refine ⟨by rw [List.getD_eq_getElem?_getD, h2, r2]; rfl, ?_⟩
  unfold keptIn
  rw [List.getD_eq_getElem?_getD, h2, List.getD_eq_getElem?_getD (l := s.drops), h3]
  simp only [Option.getD_some]
  rw [List.getD_eq_getElem?_getD, List.getElem?_eq_getElem hid]
  simp only [Option.getD_some]
  omega

theorem groupRow_nested (s : StripData) (g m : Nat) (l : List (Option Table)) (hb : GroupsBuilt s g m l)
    (i k : Nat) (hi : ∀ d ∈ s.drops, i < d.length) (hk : ∀ d ∈ s.drops, k < d.length)
    (hle : ∀ d ∈ s.drops, d.getD i 0 ≤ d.getD k 0) (q : Nat) (hq : q < m) :
    Spec.Nested (Spec.groupRow i (l.getD q none)) (Spec.groupRow k (l.getD q none)) := by
  obtain ⟨t, n, d, h1, h2, h3, h4⟩ := hb.2 q hq
  have hid := hi d (List.mem_of_getElem? h3)
  have hkd := hk d (List.mem_of_getElem? h3)
  have hl := hle d (List.mem_of_getElem? h3)
  obtain ⟨ri, rk, r1, r2, r3⟩ := h4.2.2 i k d[i] d[k] (List.getElem?_eq_getElem hid)
    (List.getElem?_eq_getElem hkd) (by simpa [hid, hkd] using hl)
  rw [List.getD_eq_getElem?_getD, h1]
  simpa [Spec.groupRow, r1, r2] using r3

theorem nested_append {a b c d : List Int} (hl : a.length = b.length) (h1 : Spec.Nested a b)
    (h2 : Spec.Nested c d) : Spec.Nested (a ++ c) (b ++ d) := by
  intro j hj
  by_cases hja : j < a.length
  · rw [List.getElem?_append_left hja] at hj
    rw [List.getElem?_append_left (by omega)]
    exact h1 j hj
  · rw [List.getElem?_append_right (by omega)] at hj
    rw [List.getElem?_append_right (by omega), ← hl]
    exact h2 _ hj

theorem nested_flatMap (idx : List Nat) (f g : Nat → List Int)
    (h : ∀ k ∈ idx, (f k).length = (g k).length ∧ Spec.Nested (f k) (g k)) :
    Spec.Nested (idx.flatMap f) (idx.flatMap g) := by
  induction idx with
  | nil => intro j hj; simp at hj
  | cons x xs ih =>
    simp only [List.flatMap_cons]
    exact nested_append (h x (by simp)).1 (h x (by simp)).2 (ih (fun k hk => h k (by simp [hk])))

theorem groupRows_eq_range (i : Nat) (groups : List (Option Table)) :
    Spec.groupRows i groups =
      (List.range groups.length).flatMap (fun (k : Nat) => Spec.groupRow i (groups.getD k none)) := by
  induction groups with
  | nil => rfl
  | cons g gs ih =>
    simp only [Spec.groupRows, List.flatMap_cons, List.length_cons, List.range_succ_eq_map,
      List.flatMap_map, Nat.succ_eq_add_one]
    congr 1

theorem coveringRow (s : StripData) (hc : s.nCovering ≤ 2) (i : Nat) (hi : i < s.nPanels) :
    (Spec.groupRow i (coveringGroup s)).length = s.nCovering ∧
    ∀ x ∈ Spec.groupRow i (coveringGroup s), x ≠ -1 := by
  unfold coveringGroup
  rcases (show s.nCovering = 0 ∨ s.nCovering = 1 ∨ s.nCovering = 2 by omega) with h | h | h <;>
    simp [h, Spec.groupRow, hi]

theorem countP_kept (l : List Int) (h : ∀ x ∈ l, x ≠ -1) : l.countP (fun x => x != -1) = l.length := by
  rw [List.countP_eq_length]
  simpa using h

/-- Plies of panel `i` in all the groups. -/
def groupPlies (s : StripData) (i : Nat) : Nat :=
  ((List.range s.sizes.length).map (fun (g : Nat) => s.sizes.getD g 0 - (s.drops.getD g []).getD i 0)).sum

/-- The layout of panel `i` from its groups: covering plies, then the groups. -/
theorem groupRows_covered (s : StripData) (hc : s.nCovering ≤ 2) (l : List (Option Table))
    (hb : GroupsBuilt s 0 s.sizes.length l) (i : Nat) (hi : i < s.nPanels)
    (hd : ∀ d ∈ s.drops, d.length = s.nPanels) :
    (Spec.groupRows i (coveringGroup s :: l)).length = s.nCovering + s.sizes.sum ∧
    (Spec.groupRows i (coveringGroup s :: l)).countP (fun x => x != -1) =
      s.nCovering + groupPlies s i ∧
    ∀ j, j < s.nCovering → (Spec.groupRows i (coveringGroup s :: l))[j]? ≠ some (-1) := by
  obtain ⟨c1, c2⟩ := coveringRow s hc i hi
  have hsplit : Spec.groupRows i (coveringGroup s :: l) =
      Spec.groupRow i (coveringGroup s) ++ Spec.groupRows i l := by simp [Spec.groupRows]
  have hg := groupRow_spec s 0 s.sizes.length l hb i (fun d h => by rw [hd d h]; exact hi)
  have hl := hb.1
  refine ⟨?_, ?_, ?_⟩
  · rw [hsplit, List.length_append, c1, groupRows_eq_range, List.length_flatMap, hl]
    congr 1
    have : (List.range s.sizes.length).map
        (fun (k : Nat) => (Spec.groupRow i (l.getD k none)).length) = s.sizes := by
      apply List.ext_getElem
      · simp
      · intro k h1 h2
        simp only [List.length_map, List.length_range] at h1
        have := (hg k h1).1
        simp only [List.getElem_map, List.getElem_range, this]
        simp [h1]
    rw [this]
  · rw [hsplit, List.countP_append, countP_kept _ c2, c1, groupRows_eq_range, List.countP_flatMap, hl]
    congr 1
    unfold groupPlies
    congr 1
    apply List.map_congr_left
    intro k hk
    have := (hg k (List.mem_range.1 hk)).2
    simpa [keptIn] using this
  · intro j hj h
    rw [hsplit, List.getElem?_append_left (by omega)] at h
    exact c2 _ (List.mem_of_getElem? h) rfl

theorem take_length_le {α : Type} {m n : Nat} {l : List α} (h : n ≤ l.length) (hm : m = n) :
    (l.take m).length = n := by simp [hm, h]

/-- A symmetric row whose first half follows `layout` has twice its plies. -/
theorem countP_symmetric {layout row : List Int} (hn : Spec.NumbersPlies layout row)
    (hl : row.length = 2 * layout.length) (hr : row.reverse = row) :
    row.countP (fun x => x != -1) = 2 * layout.countP (fun x => x != -1) := by
  have h1 : row = row.take layout.length ++ (row.take layout.length).reverse := by
    conv_lhs => rw [← List.take_append_drop layout.length row]
    congr 1
    conv_lhs => rw [← hr]
    rw [List.drop_reverse, hl]
    congr 2
    omega
  have h2 : (row.take layout.length).countP (fun x => x != -1) = layout.countP (fun x => x != -1) := by
    apply countP_of_dropped
    · rw [List.length_take, hl]; omega
    · intro j
      by_cases hj : j < layout.length
      · rw [List.getElem?_take_of_lt hj]
        exact dropped_iff_of_numbers hn hj
      · rw [List.getElem?_eq_none (by simp; omega), List.getElem?_eq_none (by omega)]
  rw [h1, List.countP_append, List.countP_reverse, h2]
  omega

theorem plyCount_length (row : List Int) :
    Spec.plyCount row row.length = row.countP (fun x => x != -1) := by
  simp [Spec.plyCount]

theorem createInitialPdl_sym_inv (s : StripData) (sched : List (List (Draw × Bool))) (t : Table)
    (hsym : s.sym = true) (hmid : s.hasMiddle = false) (hlen : s.sizes.length ≤ sched.length)
    (hv : ValidDraws s 0 sched) (h : createInitialPdl s sched = .ok (some t)) :
    ∃ l, GroupsBuilt s 0 s.sizes.length l ∧
      globalPdl s.nPanels s.nPliesMax false true (coveringGroup s :: l) none = .ok t := by
  unfold createInitialPdl at h
  rw [if_pos hsym] at h
  obtain ⟨r, h1, h⟩ := bind_ok.1 h
  cases r with
  | none => cases h
  | some l =>
    dsimp only at h
    obtain ⟨t', h2, h⟩ := bind_ok.1 h
    simp only [pure, Except.pure, Except.ok.injEq, Option.some.injEq] at h
    subst h
    rw [hmid] at h2
    refine ⟨l, ?_, h2⟩
    have := symGroups_spec s hmid _ 0 _ l (fun k sk n d e1 e2 e3 => by
      refine hv k sk n d ?_ e2 e3
      have hk : k < (sched.take s.sizes.length).length := (List.getElem?_eq_some_iff.1 e1).1
      rw [List.length_take] at hk
      rw [List.getElem?_take_of_lt (by omega)] at e1
      exact e1) h1
    rwa [take_length_le hlen rfl] at this

/-- C42: an initial layout of symmetric panels without middle ply is symmetric, does not drop covering
plies, and each panel has the plies its groups and the covering rule ask for, whatever the random
choices. -/
theorem C42_initial_layout_symmetric (s : StripData) (sched : List (List (Draw × Bool))) (t : Table)
    (hsym : s.sym = true) (hmid : s.hasMiddle = false) (hc : s.nCovering ≤ 2)
    (hlen : s.sizes.length ≤ sched.length) (hd : ∀ d ∈ s.drops, d.length = s.nPanels)
    (hv : ValidDraws s 0 sched) (h : createInitialPdl s sched = .ok (some t)) :
    t.length = s.nPanels ∧ ∀ i, i < s.nPanels → ∃ row, t[i]? = some row ∧
      row.length = 2 * (s.nCovering + s.sizes.sum) ∧ row.reverse = row ∧
      Spec.plyCount row row.length = 2 * (s.nCovering + groupPlies s i) ∧
      ∀ j, j < s.nCovering → row[j]? ≠ some (-1) := by
  obtain ⟨l, hb, hg⟩ := createInitialPdl_sym_inv s sched t hsym hmid hlen hv h
  obtain ⟨g1, g2⟩ := C41_symmetric _ _ _ _ _ hg
  refine ⟨g1, fun i hi => ?_⟩
  obtain ⟨row, r1, _, r3, r4, r5⟩ := g2 i hi
  obtain ⟨c1, c2, c3⟩ := groupRows_covered s hc l hb i hi hd
  simp only [Bool.false_eq_true, if_false, Nat.sub_zero] at r3
  refine ⟨row, r1, by rw [r3, c1], r4, ?_, fun j hj hr => ?_⟩
  · rw [plyCount_length, countP_symmetric r5 r3 r4, c2]
  · exact c3 j hj ((dropped_iff_of_numbers r5 (by omega)).1 hr)

theorem nested_covered (s : StripData) (l : List (Option Table))
    (hb : GroupsBuilt s 0 s.sizes.length l) (i k : Nat) (hi : i < s.nPanels) (hk : k < s.nPanels)
    (hd : ∀ d ∈ s.drops, d.length = s.nPanels) (hle : ∀ d ∈ s.drops, d.getD i 0 ≤ d.getD k 0)
    (q : Nat) (hq : q < l.length) :
    (Spec.groupRow i (l.getD q none)).length = (Spec.groupRow k (l.getD q none)).length ∧
    Spec.Nested (Spec.groupRow i (l.getD q none)) (Spec.groupRow k (l.getD q none)) := by
  have hl := hb.1
  have hi' : ∀ d ∈ s.drops, i < d.length := fun d h => by rw [hd d h]; exact hi
  have hk' : ∀ d ∈ s.drops, k < d.length := fun d h => by rw [hd d h]; exact hk
  refine ⟨?_, groupRow_nested s 0 _ l hb i k hi' hk' hle q (by omega)⟩
  rw [(groupRow_spec s 0 _ l hb i hi' q (by omega)).1, (groupRow_spec s 0 _ l hb k hk' q (by omega)).1]

theorem nested_covering (s : StripData) (hc : s.nCovering ≤ 2) (i k : Nat) (hi : i < s.nPanels)
    (hk : k < s.nPanels) : (Spec.groupRow i (coveringGroup s)).length =
      (Spec.groupRow k (coveringGroup s)).length ∧
      Spec.Nested (Spec.groupRow i (coveringGroup s)) (Spec.groupRow k (coveringGroup s)) := by
  obtain ⟨c1, c2⟩ := coveringRow s hc i hi
  obtain ⟨d1, _⟩ := coveringRow s hc k hk
  exact ⟨by rw [c1, d1], fun j hj => absurd rfl (c2 _ (List.mem_of_getElem? hj))⟩

/-- C42: if in every group panel `k` has at least as many ply drops as panel `i`, the plies dropped in
panel `i` are dropped in panel `k` (guide-based blending). -/
theorem C42_initial_layout_symmetric_nested (s : StripData) (sched : List (List (Draw × Bool))) (t : Table)
    (hsym : s.sym = true) (hmid : s.hasMiddle = false) (hc : s.nCovering ≤ 2)
    (hlen : s.sizes.length ≤ sched.length) (hd : ∀ d ∈ s.drops, d.length = s.nPanels)
    (hv : ValidDraws s 0 sched) (h : createInitialPdl s sched = .ok (some t)) (i k : Nat)
    (hi : i < s.nPanels) (hk : k < s.nPanels) (hle : ∀ d ∈ s.drops, d.getD i 0 ≤ d.getD k 0) :
    ∃ ri rk, t[i]? = some ri ∧ t[k]? = some rk ∧ Spec.Nested ri rk := by
  obtain ⟨l, hb, hg⟩ := createInitialPdl_sym_inv s sched t hsym hmid hlen hv h
  refine C41_symmetric_nested _ _ _ _ _ hg i k hi hk ?_
  rw [groupRows_eq_range, groupRows_eq_range]
  apply nested_flatMap
  intro q hq
  have hq' := List.mem_range.1 hq
  cases q with
  | zero => exact nested_covering s hc i k hi hk
  | succ q =>
    exact nested_covered s l hb i k hi hk hd hle q (by simpa using hq')

/-! ### asymmetric laminates -/

theorem onlyParity_getD (par k0 : Nat) (gs : List (Option Table)) (k : Nat) :
    (onlyParity par k0 gs).getD k none = if (k0 + k) % 2 = par then gs.getD k none else none := by
  induction gs generalizing k0 k with
  | nil => simp [onlyParity]
  | cons g gs ih =>
    cases k with
    | zero => simp [onlyParity]
    | succ k =>
      have := ih (k0 + 1) k
      simp only [onlyParity, List.getD_cons_succ, this]
      congr 2
      omega

theorem onlyParity_length (par k0 : Nat) (gs : List (Option Table)) :
    (onlyParity par k0 gs).length = gs.length := by
  induction gs generalizing k0 with
  | nil => rfl
  | cons g gs ih => simp [onlyParity, ih]

/-- The rows of the groups, first those of even rank, then those of odd rank in reverse order. -/
def facesRows (i : Nat) (gs : List (Option Table)) : List Int :=
  (List.range gs.length).flatMap
    (fun (k : Nat) => if k % 2 = 0 then Spec.groupRow i (gs.getD k none) else []) ++
  (List.range gs.length).reverse.flatMap
    (fun (k : Nat) => if k % 2 = 1 then Spec.groupRow i (gs.getD k none) else [])

theorem alternateRows_onlyParity (i : Nat) (gs : List (Option Table)) :
    Spec.alternateRows i (onlyParity 0 0 gs) (onlyParity 1 0 gs) = facesRows i gs := by
  unfold Spec.alternateRows facesRows
  rw [onlyParity_length]
  congr 1
  · apply congrArg (fun f => List.flatMap f (List.range gs.length))
    funext k
    split
    · rw [onlyParity_getD, if_pos (by omega)]
    · rfl
  · apply congrArg (fun f => List.flatMap f (List.range gs.length).reverse)
    funext k
    split
    · rw [onlyParity_getD, if_pos (by omega)]
    · rfl

theorem sum_parity (n : Nat) (f : Nat → Nat) :
    ((List.range n).map (fun (k : Nat) => if k % 2 = 0 then f k else 0)).sum +
      ((List.range n).map (fun (k : Nat) => if k % 2 = 1 then f k else 0)).sum =
      ((List.range n).map f).sum := by
  induction n with
  | zero => rfl
  | succ n ih =>
    simp only [List.range_succ, List.map_append, List.sum_append, List.map_cons, List.map_nil,
      List.sum_cons, List.sum_nil]
    rcases Nat.mod_two_eq_zero_or_one n with h | h <;> simp [h] <;> omega

theorem facesRows_countP (i : Nat) (gs : List (Option Table)) (p : Int → Bool) :
    (facesRows i gs).countP p = (Spec.groupRows i gs).countP p := by
  rw [groupRows_eq_range, facesRows, List.countP_append, List.countP_flatMap, List.countP_flatMap,
    List.countP_flatMap, List.map_reverse, List.sum_reverse]
  have h := sum_parity gs.length (fun (k : Nat) => (Spec.groupRow i (gs.getD k none)).countP p)
  refine Eq.trans ?_ h
  congr 1
  · apply congrArg List.sum
    apply List.map_congr_left
    intro k _
    dsimp only [Function.comp]
    split <;> simp
  · apply congrArg List.sum
    apply List.map_congr_left
    intro k _
    dsimp only [Function.comp]
    split <;> simp

theorem facesRows_length (i : Nat) (gs : List (Option Table)) :
    (facesRows i gs).length = (Spec.groupRows i gs).length := by
  have h := facesRows_countP i gs (fun _ => true)
  simpa using h

theorem createInitialPdl_asym_inv (s : StripData) (sched : List (List (Draw × Bool))) (t : Table)
    (hsym : s.sym = false) (hlen : s.sizes.length ≤ sched.length)
    (hv : ValidDraws s 0 sched) (h : createInitialPdl s sched = .ok (some t)) :
    ∃ l, GroupsBuilt s 0 s.sizes.length l ∧
      globalPdl s.nPanels s.nPliesMax s.hasMiddle false
        (onlyParity 0 0 (coveringGroup s :: coveringGroup s :: l))
        (some (onlyParity 1 0 (coveringGroup s :: coveringGroup s :: l))) = .ok t := by
  unfold createInitialPdl at h
  rw [if_neg (by simp [hsym])] at h
  obtain ⟨r, h1, h⟩ := bind_ok.1 h
  cases r with
  | none => cases h
  | some l =>
    dsimp only at h
    obtain ⟨t', h2, h⟩ := bind_ok.1 h
    simp only [pure, Except.pure, Except.ok.injEq, Option.some.injEq] at h
    subst h
    refine ⟨l, ?_, h2⟩
    have := asymGroups_spec s _ 0 _ _ l (fun k sk n d e1 e2 e3 => by
      refine hv k sk n d ?_ e2 e3
      have hk : k < (sched.take s.sizes.length).length := (List.getElem?_eq_some_iff.1 e1).1
      rw [List.length_take] at hk
      rw [List.getElem?_take_of_lt (by omega)] at e1
      exact e1) h1
    rwa [take_length_le hlen rfl] at this

/-- C42: an initial layout of asymmetric panels does not drop the covering plies of the two faces, and each
panel has the plies its groups and the covering rule ask for, whatever the random choices. -/
theorem C42_initial_layout_asymmetric (s : StripData) (sched : List (List (Draw × Bool))) (t : Table)
    (hsym : s.sym = false) (hc : s.nCovering ≤ 2)
    (hlen : s.sizes.length ≤ sched.length) (hd : ∀ d ∈ s.drops, d.length = s.nPanels)
    (hv : ValidDraws s 0 sched) (h : createInitialPdl s sched = .ok (some t)) :
    t.length = s.nPanels ∧ ∀ i, i < s.nPanels → ∃ row, t[i]? = some row ∧
      row.length = 2 * s.nCovering + s.sizes.sum ∧
      Spec.plyCount row row.length = 2 * s.nCovering + groupPlies s i ∧
      ∀ j, j < s.nCovering → row[j]? ≠ some (-1) ∧ row[row.length - 1 - j]? ≠ some (-1) := by
  obtain ⟨l, hb, hg⟩ := createInitialPdl_asym_inv s sched t hsym hlen hv h
  obtain ⟨g1, g2⟩ := C41_asymmetric _ _ _ _ _ _ hg
  refine ⟨g1, fun i hi => ?_⟩
  obtain ⟨row, r1, _, r3, r5⟩ := g2 i hi
  rw [alternateRows_onlyParity] at r3 r5
  obtain ⟨c1, c2, c3⟩ := groupRows_covered s hc l hb i hi hd
  obtain ⟨v1, v2⟩ := coveringRow s hc i hi
  have hsplit : Spec.groupRows i (coveringGroup s :: coveringGroup s :: l) =
      Spec.groupRow i (coveringGroup s) ++ Spec.groupRows i (coveringGroup s :: l) := by
    simp [Spec.groupRows]
  have hL : (facesRows i (coveringGroup s :: coveringGroup s :: l)).length =
      2 * s.nCovering + s.sizes.sum := by
    rw [facesRows_length, hsplit, List.length_append, v1, c1]; omega
  have hC : row.countP (fun x => x != -1) = 2 * s.nCovering + groupPlies s i := by
    rw [countP_of_dropped r3 (fun j => ?_), facesRows_countP, hsplit, List.countP_append,
      countP_kept _ v2, v1, c2]
    · omega
    · by_cases hj : j < (facesRows i (coveringGroup s :: coveringGroup s :: l)).length
      · exact dropped_iff_of_numbers r5 hj
      · rw [List.getElem?_eq_none (by omega), List.getElem?_eq_none (by omega)]
  -- the two ends of the layout
  have hfront : ∃ rest, facesRows i (coveringGroup s :: coveringGroup s :: l) =
      Spec.groupRow i (coveringGroup s) ++ rest := by
    unfold facesRows
    rw [List.length_cons, List.range_succ_eq_map, List.flatMap_cons]
    simp only [Nat.zero_mod, if_true, List.getD_cons_zero]
    exact ⟨_, List.append_assoc _ _ _⟩
  have hback : ∃ rest, facesRows i (coveringGroup s :: coveringGroup s :: l) =
      rest ++ Spec.groupRow i (coveringGroup s) := by
    unfold facesRows
    rw [List.length_cons, List.length_cons, List.range_succ_eq_map, List.range_succ_eq_map]
    simp only [List.map_cons, List.reverse_cons, List.flatMap_append, List.flatMap_cons, List.flatMap_nil,
      List.append_nil, Nat.zero_mod, Nat.succ_eq_add_one, Nat.zero_add, if_false, List.getD_cons_succ,
      List.getD_cons_zero, show (1 : Nat) % 2 = 1 from rfl, show ¬ ((0 : Nat) = 1) by omega, if_true]
    exact ⟨_, (List.append_assoc _ _ _).symm⟩
  refine ⟨row, r1, by rw [r3, hL], by rw [plyCount_length, hC], fun j hj => ⟨fun hr => ?_, fun hr => ?_⟩⟩
  · have h1 := (dropped_iff_of_numbers r5 (by omega)).1 hr
    obtain ⟨rest, e⟩ := hfront
    rw [e, List.getElem?_append_left (by omega)] at h1
    exact v2 _ (List.mem_of_getElem? h1) rfl
  · have h1 := (dropped_iff_of_numbers r5 (by omega)).1 hr
    obtain ⟨rest, e⟩ := hback
    have hle := congrArg List.length e
    rw [List.length_append, v1] at hle
    rw [r3, e, List.getElem?_append_right (by rw [List.length_append, v1]; omega)] at h1
    exact v2 _ (List.mem_of_getElem? h1) rfl

/-- C42: guide-based blending for asymmetric laminates. -/
theorem C42_initial_layout_asymmetric_nested (s : StripData) (sched : List (List (Draw × Bool))) (t : Table)
    (hsym : s.sym = false) (hc : s.nCovering ≤ 2)
    (hlen : s.sizes.length ≤ sched.length) (hd : ∀ d ∈ s.drops, d.length = s.nPanels)
    (hv : ValidDraws s 0 sched) (h : createInitialPdl s sched = .ok (some t)) (i k : Nat)
    (hi : i < s.nPanels) (hk : k < s.nPanels) (hle : ∀ d ∈ s.drops, d.getD i 0 ≤ d.getD k 0) :
    ∃ ri rk, t[i]? = some ri ∧ t[k]? = some rk ∧ Spec.Nested ri rk := by
  obtain ⟨l, hb, hg⟩ := createInitialPdl_asym_inv s sched t hsym hlen hv h
  refine C41_asymmetric_nested _ _ _ _ _ _ hg i k hi hk ?_
  rw [alternateRows_onlyParity, alternateRows_onlyParity]
  have key : ∀ q, q < (coveringGroup s :: coveringGroup s :: l).length →
      (Spec.groupRow i ((coveringGroup s :: coveringGroup s :: l).getD q none)).length =
        (Spec.groupRow k ((coveringGroup s :: coveringGroup s :: l).getD q none)).length ∧
      Spec.Nested (Spec.groupRow i ((coveringGroup s :: coveringGroup s :: l).getD q none))
        (Spec.groupRow k ((coveringGroup s :: coveringGroup s :: l).getD q none)) := by
    intro q hq
    match q with
    | 0 => exact nested_covering s hc i k hi hk
    | 1 => exact nested_covering s hc i k hi hk
    | q + 2 => exact nested_covered s l hb i k hi hk hd hle q (by simpa using hq)
  have hflat : ∀ (par : Nat) (idx : List Nat), (∀ q ∈ idx, q < (coveringGroup s :: coveringGroup s :: l).length) →
      ∀ q ∈ idx,
      (if q % 2 = par then Spec.groupRow i ((coveringGroup s :: coveringGroup s :: l).getD q none)
        else ([] : List Int)).length =
      (if q % 2 = par then Spec.groupRow k ((coveringGroup s :: coveringGroup s :: l).getD q none)
        else ([] : List Int)).length ∧
      Spec.Nested (if q % 2 = par then
          Spec.groupRow i ((coveringGroup s :: coveringGroup s :: l).getD q none) else ([] : List Int))
        (if q % 2 = par then
          Spec.groupRow k ((coveringGroup s :: coveringGroup s :: l).getD q none) else ([] : List Int)) := by
    intro par idx hidx q hq
    split
    · exact key q (hidx q hq)
    · exact ⟨rfl, fun j hj => by simp at hj⟩
  unfold facesRows
  refine nested_append ?_ (nested_flatMap _ _ _ (hflat 0 _ (fun q hq => List.mem_range.1 hq)))
    (nested_flatMap _ _ _ (hflat 1 _ (fun q hq => List.mem_range.1 (List.mem_reverse.1 hq))))
  rw [List.length_flatMap, List.length_flatMap]
  apply congrArg List.sum
  apply List.map_congr_left
  intro q hq
  exact (hflat 0 _ (fun q hq => List.mem_range.1 hq) q hq).1

/-! ### the set of initial layouts -/

theorem groupSpacing_alone (m : Int) (bs : List (Nat × Nat × ℚ)) (pdl : Table) (p : ℚ)
    (h : groupSpacing true m bs none none pdl = .ok p) : calcPenaltySpacing pdl bs m = .ok p := by
  unfold groupSpacing at h
  rw [if_neg (by simp)] at h
  unfold calcPenaltySpacing
  generalize (0 : ℚ) = acc at h ⊢
  induction bs generalizing acc with
  | nil => exact h
  | cons b bs ih =>
    rw [List.foldlM_cons] at h ⊢
    obtain ⟨v, hv, h⟩ := bind_ok.1 h
    refine bind_ok.2 ⟨v, ?_, ih v h⟩
    obtain ⟨r1, h1, hv⟩ := bind_ok.1 hv
    obtain ⟨r2, h2, hv⟩ := bind_ok.1 hv
    rw [pyGet_eq_ok] at h1 h2
    simp only [optRow, bind, Except.bind, List.nil_append, List.append_nil] at hv
    simp only [List.getD_eq_getElem?_getD, h1, h2, Option.getD_some, bind, Except.bind]
    exact hv

/-- C42: if the time limit is not reached, the initial layouts are as many as asked for, all different,
each obtained by random choices of the schedule, and in each of them the ply drops are spaced for every
pair of neighbouring panels. -/
theorem C42_initial_layouts_in_time (s : StripData) (nIni : Nat)
    (sched : List (List (List (Draw × Bool)) × Bool)) (hin : ∀ x ∈ sched, x.2 = false)
    (hw : ∀ b ∈ s.boundaries, 0 < b.2.2) (hsp : s.pdlSpacing = true) (l : List Table)
    (h : createInitialPdls s nIni false sched = .ok (some l)) :
    l.length = nIni ∧ l.Nodup ∧ ∀ t ∈ l, (∃ x ∈ sched, createInitialPdl s x.1 = .ok (some t)) ∧
      ∀ b ∈ s.boundaries, (t.getD b.1 []).length ≠ 1 → (t.getD b.2.1 []).length ≠ 1 →
        Spec.Spaced s.minDrop (spacingLayout (t.getD b.1 []) (t.getD b.2.1 [])) := by
  obtain ⟨h1, h2, h3⟩ := C42_search_in_time _ _ _ sched hin l h
  refine ⟨h1, h2, fun t ht => ?_⟩
  obtain ⟨x, hx, hg⟩ := h3 t ht
  obtain ⟨r, hr, hg⟩ := bind_ok.1 hg
  cases r with
  | none => cases hg
  | some t' =>
    dsimp only at hg
    obtain ⟨p, hp, hg⟩ := bind_ok.1 hg
    simp only [pure, Except.pure, Except.ok.injEq, Prod.mk.injEq] at hg
    obtain ⟨rfl, rfl⟩ := hg
    refine ⟨⟨x, hx, hr⟩, ?_⟩
    rw [hsp] at hp
    exact (C10_layout_zero_iff _ _ _ _ hw (groupSpacing_alone _ _ _ _ hp)).2.1 rfl

/-- C42: in any case each initial layout returned is one created from random choices of the schedule. -/
theorem C42_initial_layouts_created (s : StripData) (nIni : Nat) (late0 : Bool)
    (sched : List (List (List (Draw × Bool)) × Bool)) (l : List Table)
    (h : createInitialPdls s nIni late0 sched = .ok (some l)) :
    l.length = nIni ∧ ∀ t ∈ l, ∃ x ∈ sched, createInitialPdl s x.1 = .ok (some t) := by
  refine ⟨C42_search_count _ _ _ _ _ le_rfl l h, fun t ht => ?_⟩
  obtain ⟨x, hx, p, hg⟩ := C42_returned_layouts_are_generated _ _ _ _ _ l h t ht
  obtain ⟨r, hr, hg⟩ := bind_ok.1 hg
  cases r with
  | none => cases hg
  | some t' =>
    dsimp only at hg
    obtain ⟨p', hp, hg⟩ := bind_ok.1 hg
    simp only [pure, Except.pure, Except.ok.injEq, Prod.mk.injEq] at hg
    obtain ⟨rfl, rfl⟩ := hg
    exact ⟨x, hx, hr⟩

/-! ### what does not hold -/

theorem nested_count {a b : List Int} (h : Spec.Nested a b) :
    (Spec.dropPositions a).length ≤ (Spec.dropPositions b).length := by
  have hn : (Spec.dropPositions a).Nodup := (dropPositions_sorted a).imp (fun h => Nat.ne_of_lt h)
  exact (List.subperm_of_subset hn (fun j hj => (mem_dropPositions b j).2
    (h j ((mem_dropPositions a j).1 hj)))).length_le

theorem nested_flatMap_inv (idx : List Nat) (f g : Nat → List Int)
    (hl : ∀ k ∈ idx, (f k).length = (g k).length)
    (h : Spec.Nested (idx.flatMap f) (idx.flatMap g)) : ∀ k ∈ idx, Spec.Nested (f k) (g k) := by
  induction idx with
  | nil => intro k hk; cases hk
  | cons x xs ih =>
    simp only [List.flatMap_cons] at h
    have hx := hl x (by simp)
    have h1 : Spec.Nested (f x) (g x) := by
      intro j hj
      have hjl : j < (f x).length := (List.getElem?_eq_some_iff.1 hj).1
      have := h j (by rw [List.getElem?_append_left hjl]; exact hj)
      rwa [List.getElem?_append_left (by omega)] at this
    have h2 : Spec.Nested (xs.flatMap f) (xs.flatMap g) := by
      intro j hj
      have := h ((f x).length + j) (by
        rw [List.getElem?_append_right (by omega)]
        simpa using hj)
      rw [hx, List.getElem?_append_right (by omega)] at this
      simpa using this
    intro k hk
    rcases List.mem_cons.1 hk with rfl | hk
    · exact h1
    · exact ih (fun k hk => hl k (by simp [hk])) h2 k hk

/-- C42: guide-based blending holds only if the ply drops of every group are ordered as the panels: if in
one group panel `i` has more ply drops than panel `k`, no outcome of the random choices gives a layout in
which the plies dropped in panel `i` are dropped in panel `k`, whatever the total numbers of plies. -/
theorem C42_blending_broken_by_group_violation (s : StripData) (sched : List (List (Draw × Bool)))
    (t : Table) (hsym : s.sym = true) (hmid : s.hasMiddle = false) (hc : s.nCovering ≤ 2)
    (hlen : s.sizes.length ≤ sched.length) (hd : ∀ d ∈ s.drops, d.length = s.nPanels)
    (hv : ValidDraws s 0 sched) (h : createInitialPdl s sched = .ok (some t)) (i k g : Nat)
    (hi : i < s.nPanels) (hk : k < s.nPanels) (hg : g < s.sizes.length) (dg : List Nat)
    (hdg : s.drops[g]? = some dg) (hlt : dg.getD k 0 < dg.getD i 0) (ri rk : List Int)
    (hri : t[i]? = some ri) (hrk : t[k]? = some rk) : ¬ Spec.Nested ri rk := by
  intro hnest
  obtain ⟨l, hb, hgl⟩ := createInitialPdl_sym_inv s sched t hsym hmid hlen hv h
  obtain ⟨_, g2⟩ := C41_symmetric _ _ _ _ _ hgl
  obtain ⟨ri', a1, _, a3, _, a5⟩ := g2 i hi
  obtain ⟨rk', b1, _, b3, _, b5⟩ := g2 k hk
  rw [hri] at a1; cases a1
  rw [hrk] at b1; cases b1
  obtain ⟨ci, _, _⟩ := groupRows_covered s hc l hb i hi hd
  obtain ⟨ck, _, _⟩ := groupRows_covered s hc l hb k hk hd
  have h1 : Spec.Nested (Spec.groupRows i (coveringGroup s :: l))
      (Spec.groupRows k (coveringGroup s :: l)) := by
    intro j hj
    have hjl : j < (Spec.groupRows i (coveringGroup s :: l)).length :=
      (List.getElem?_eq_some_iff.1 hj).1
    exact (dropped_iff_of_numbers b5 (by omega)).1
      (hnest j ((dropped_iff_of_numbers a5 hjl).2 hj))
  rw [groupRows_eq_range, groupRows_eq_range] at h1
  have hi' : ∀ d ∈ s.drops, i < d.length := fun d h => by rw [hd d h]; exact hi
  have hk' : ∀ d ∈ s.drops, k < d.length := fun d h => by rw [hd d h]; exact hk
  have hll := hb.1
  have h2 := nested_flatMap_inv _ _ _ (fun q hq => by
    have hq' := List.mem_range.1 hq
    cases q with
    | zero => exact (nested_covering s hc i k hi hk).1
    | succ q =>
      have hq2 : q < s.sizes.length := by simp at hq'; omega
      simp only [List.getD_cons_succ]
      rw [(groupRow_spec s 0 _ l hb i hi' q hq2).1, (groupRow_spec s 0 _ l hb k hk' q hq2).1]) h1
    (g + 1) (List.mem_range.2 (by simp; omega))
  simp only [List.getD_cons_succ] at h2
  obtain ⟨tg, n, d, e1, e2, e3, e4⟩ := hb.2 g hg
  rw [Nat.zero_add] at e2 e3
  rw [hdg] at e3; cases e3
  have hil := hi' dg (List.mem_of_getElem? hdg)
  have hkl := hk' dg (List.mem_of_getElem? hdg)
  obtain ⟨xi, p1, p2, p3⟩ := e4.2.1 i dg[i] (List.getElem?_eq_getElem hil)
  obtain ⟨xk, q1, q2, q3⟩ := e4.2.1 k dg[k] (List.getElem?_eq_getElem hkl)
  have h3 := nested_count h2
  rw [List.getD_eq_getElem?_getD, e1] at h3
  simp only [Option.getD_some, Spec.groupRow, List.getD_eq_getElem?_getD, p1, q1, p3, q3] at h3
  simp only [List.getD_eq_getElem?_getD, List.getElem?_eq_getElem hil, List.getElem?_eq_getElem hkl,
    Option.getD_some] at hlt
  omega

/-- C42, C22 (violated): such ply drops are those `divide_panels` chooses.  A symmetric panel of 76 plies
without covering plies, in groups of at most 10 plies, has groups of 9, 9, 10 and 10 plies; a panel of 68
plies has 2 ply drops in the last group, the thinner panel of 66 plies only 1. -/
theorem C42_group_drops_not_ordered_violation :
    partitionSizes 38 9 10 = .ok [9, 9, 10, 10] ∧
    (∃ p, dividePanel true 76 0 10 ([9, 9, 10, 10], firstPlies true 0 [9, 9, 10, 10]) 68 100 = some p ∧
      p.drops = [0, 0, 2, 2]) ∧
    (∃ p, dividePanel true 76 0 10 ([9, 9, 10, 10], firstPlies true 0 [9, 9, 10, 10]) 66 100 = some p ∧
      p.drops = [1, 1, 2, 1]) := by
  refine ⟨by decide +kernel, ?_, ?_⟩
  · have h : (dividePanel true 76 0 10 ([9, 9, 10, 10], firstPlies true 0 [9, 9, 10, 10]) 68 100).map
      PanelGroups.drops = some [0, 0, 2, 2] := by decide +kernel
    obtain ⟨p, hp, e⟩ := Option.map_eq_some_iff.1 h
    exact ⟨p, hp, e⟩
  · have h : (dividePanel true 76 0 10 ([9, 9, 10, 10], firstPlies true 0 [9, 9, 10, 10]) 66 100).map
      PanelGroups.drops = some [1, 1, 2, 1] := by decide +kernel
    obtain ⟨p, hp, e⟩ := Option.map_eq_some_iff.1 h
    exact ⟨p, hp, e⟩

/-- C42 (violated): for symmetric panels of the same thickness (no ply drop in any group), asking for more
than one initial layout never succeeds: only one layout exists, the search lasts until the time limit, and
then it raises. -/
theorem C42_no_ply_drops_violation (s : StripData) (nIni : Nat) (hn : 2 ≤ nIni) (late0 : Bool)
    (sched : List (List (List (Draw × Bool)) × Bool)) (hsym : s.sym = true) (hmid : s.hasMiddle = false)
    (hc : s.nCovering ≤ 2) (hw : ∀ b ∈ s.boundaries, 0 < b.2.2)
    (hd : ∀ d ∈ s.drops, d = List.replicate s.nPanels 0)
    (hlen : ∀ x ∈ sched, s.sizes.length ≤ x.1.length) (hv : ∀ x ∈ sched, ValidDraws s 0 x.1)
    (l : List Table) : createInitialPdls s nIni late0 sched ≠ .ok (some l) := by
  let half : List Int := (List.range (s.nCovering + s.sizes.sum)).map (fun (j : Nat) => (j : Int) + 1)
  refine C42_single_layout_violation _ (List.replicate s.nPanels (half ++ half.reverse)) nIni hn late0
    sched (fun x hx t p hg => ?_) l
  obtain ⟨r, hr, hg⟩ := bind_ok.1 hg
  cases r with
  | none => cases hg
  | some t' =>
    dsimp only at hg
    obtain ⟨q, hq, hg⟩ := bind_ok.1 hg
    simp only [pure, Except.pure, Except.ok.injEq, Prod.mk.injEq] at hg
    obtain ⟨rfl, rfl⟩ := hg
    have hd' : ∀ d ∈ s.drops, d.length = s.nPanels := fun d h => by rw [hd d h]; simp
    obtain ⟨l, hb, hgl⟩ := createInitialPdl_sym_inv s x.1 t' hsym hmid (hlen x hx) (hv x hx) hr
    obtain ⟨g1, g2⟩ := C41_symmetric _ _ _ _ _ hgl
    have hrow : ∀ i, i < s.nPanels → t'[i]? = some (half ++ half.reverse) := by
      intro i hi
      obtain ⟨row, r1, _, r3, r4, r5⟩ := g2 i hi
      obtain ⟨c1, c2, c3⟩ := groupRows_covered s hc l hb i hi hd'
      simp only [Bool.false_eq_true, if_false, Nat.sub_zero] at r3
      -- no ply is dropped
      have hkept : groupPlies s i = s.sizes.sum := by
        unfold groupPlies
        have : (List.range s.sizes.length).map
            (fun (g : Nat) => s.sizes.getD g 0 - (s.drops.getD g []).getD i 0) = s.sizes := by
          apply List.ext_getElem
          · simp
          · intro g h1 h2
            have hz : (s.drops.getD g []).getD i 0 = 0 := by
              by_cases hgl : g < s.drops.length
              · have := hd s.drops[g] (List.getElem_mem hgl)
                simp [hgl, this, hi]
              · simp [hgl]
            simp only [List.getElem_map, List.getElem_range, hz]
            simp [h2]
        rw [this]
      have hall : ∀ x ∈ Spec.groupRows i (coveringGroup s :: l), x ≠ -1 := by
        have h1 : (Spec.groupRows i (coveringGroup s :: l)).countP (fun x => x != -1) =
            (Spec.groupRows i (coveringGroup s :: l)).length := by rw [c2, hkept, c1]
        rw [List.countP_eq_length] at h1
        simpa using h1
      have hval : ∀ j, j < s.nCovering + s.sizes.sum → row[j]? = some ((j : Int) + 1) := by
        intro j hj
        have hjl : j < (Spec.groupRows i (coveringGroup s :: l)).length := by omega
        have e := r5 j _ (List.getElem?_eq_getElem hjl)
        rw [if_neg (hall _ (List.getElem_mem hjl))] at e
        rw [e]
        have : Spec.plyCount (Spec.groupRows i (coveringGroup s :: l)) (j + 1) = j + 1 := by
          unfold Spec.plyCount
          rw [countP_kept _ (fun x hx => hall x (List.mem_of_mem_take hx)), List.length_take]
          omega
        rw [this]
        push_cast
        rfl
      have htake : row.take (s.nCovering + s.sizes.sum) = half := by
        apply List.ext_getElem?
        intro j
        by_cases hj : j < s.nCovering + s.sizes.sum
        · rw [List.getElem?_take_of_lt hj, hval j hj]
          simp [half, hj]
        · rw [List.getElem?_eq_none (by simp; omega), List.getElem?_eq_none (by simp [half]; omega)]
      rw [r1]
      congr 1
      conv_lhs => rw [← List.take_append_drop (s.nCovering + s.sizes.sum) row, htake]
      congr 1
      rw [← htake]
      conv_lhs => rw [← r4]
      rw [List.drop_reverse]
      congr 2
      omega
    have ht : t' = List.replicate s.nPanels (half ++ half.reverse) := by
      apply List.ext_getElem?
      intro i
      by_cases hi : i < s.nPanels
      · rw [hrow i hi]; simp [hi]
      · rw [List.getElem?_eq_none (by omega), List.getElem?_eq_none (by simp; omega)]
    refine ⟨ht, ?_⟩
    cases hps : s.pdlSpacing with
    | false =>
      rw [hps] at hq
      simp only [groupSpacing, if_true, Except.ok.injEq] at hq
      exact hq.symm
    | true =>
      rw [hps] at hq
      refine (C10_layout_zero_iff _ _ _ _ hw (groupSpacing_alone _ _ _ _ hq)).2.2 (fun b _ _ _ => ?_)
      have hno : ∀ i x, x ∈ t'.getD i [] → x ≠ -1 := by
        intro i x hx
        rw [ht, List.getD_eq_getElem?_getD, List.getElem?_replicate] at hx
        split at hx
        · simp only [Option.getD_some, List.mem_append, List.mem_reverse, or_self, half, List.mem_map,
            List.mem_range] at hx
          obtain ⟨j, _, rfl⟩ := hx
          omega
        · simp at hx
      intro j k _ hj _
      have hm := List.mem_of_getElem? hj
      exfalso
      unfold spacingLayout at hm
      dsimp only at hm
      split at hm
      · obtain ⟨y, hy, e⟩ := List.mem_map.1 hm
        exact hno b.1 y.1 (List.of_mem_zip (List.mem_of_mem_filter hy)).1 e
      · obtain ⟨y, hy, e⟩ := List.mem_map.1 hm
        exact hno b.2.1 y.2 (List.of_mem_zip (List.mem_of_mem_filter hy)).2 e

/-- C42 (violated): with a middle ply, the last group of panels with different numbers of ply drops cannot
be generated: the column of middle plies has one value less than there are panels. -/
theorem C42_middle_ply_crash_violation (a : GroupArgs) (d : Draw) (hv : ValidDraw a d)
    (hlast : a.lastGroup = true) (hmid : a.hasMiddle = true) (hne : a.nDrops ≠ [])
    (hlen : a.middleIdx.length = a.nDrops.length) (hnd : a.nDrops.Nodup) :
    drawPdl a d = .error .valueError := by
  obtain ⟨drops, e1, e2, e3, e4⟩ := drawDrops_spec a d hv
  have hrange : ∀ ds ∈ drops, ∀ d ∈ ds, d < a.nMax := fun ds hds j hj => ((e4 ds hds).2 j hj).1
  obtain ⟨tf, f1, f2, f3⟩ := C41_format drops a.nMax hrange
  have hu : (uniqueDrops a.nDrops).length = a.nDrops.length := by
    unfold uniqueDrops
    rw [List.length_insertionSort, List.Nodup.dedup hnd]
  have hdl : drops.length = (uniqueDrops a.nDrops).length := by rw [← e2]; simp
  have hpos : 0 < a.nDrops.length := List.length_pos_iff.2 hne
  have hm : addMiddle a.middleIdx tf = .error .valueError := by
    unfold addMiddle
    rw [if_pos]
    simp only [List.length_map, List.length_dropLast]
    omega
  simp [drawPdl, e1, f1, hlast, hmid, hm, bind, Except.bind]

/-- C42 (violated): and when the sizes fit, a panel with a middle ply (index not zero) gets a ply drop in
this column, and a panel without middle ply gets a ply. -/
theorem C42_middle_ply_inverted_violation (middleIdx : List Int) (t t' : Table)
    (h : addMiddle middleIdx t = .ok t') (i : Nat) (m : Int) (row : List Int)
    (hi : i + 1 < middleIdx.length) (hm : middleIdx[i]? = some m) (hrow : t[i]? = some row) :
    t'[i]? = some (row ++ [if m = 0 then 0 else -1]) := by
  unfold addMiddle at h
  dsimp only at h
  split at h
  · cases h
  · simp only [Except.ok.injEq] at h
    subst h
    have hd : middleIdx.dropLast[i]? = some m := by
      rw [List.dropLast_eq_take, List.getElem?_take_of_lt (by omega), hm]
    rw [List.getElem?_zipWith, hrow, List.getElem?_map, hd]
    by_cases h0 : m = 0 <;> simp [h0]

/-! ### the hypotheses are met -/

/-- Two groups of 4 and 5 plies, three panels, one covering ply. -/
def layoutStrip (sym : Bool) : StripData where
  nPanels := 3
  nPliesMax := if sym then 20 else 11
  hasMiddle := false
  middleIdx := []
  sizes := [4, 5]
  drops := [[0, 1, 2], [0, 1, 1]]
  boundaries := [(0, 1, 1/2), (1, 2, 1/2)]
  sym := sym
  nCovering := 1
  pdlSpacing := false
  minDrop := 2
  late0 := false

def layoutDraws : List (List (Draw × Bool)) :=
  [[(⟨[3, 1], [[0], [0]]⟩, false)], [(⟨[2], [[0]]⟩, false)]]

theorem layoutDraws_valid (sym : Bool) : ValidDraws (layoutStrip sym) 0 layoutDraws := by
  intro k sk n d h1 h2 h3
  match k with
  | 0 =>
    simp only [layoutStrip, layoutDraws, List.getElem?_cons_zero, Option.some.injEq, Nat.zero_add] at h1 h2 h3
    subst h1 h2 h3
    intro x hx
    rw [List.mem_singleton.1 hx]
    refine ⟨2, [1, 0], by decide +kernel, by decide, ?_, rfl, ?_⟩
    · simp [Spec.MayDrop]
    · simp [Spec.RestoreSamples, Spec.IsSample]
  | 1 =>
    simp only [layoutStrip, layoutDraws, Nat.zero_add, List.getElem?_cons_succ, List.getElem?_cons_zero,
      Option.some.injEq] at h1 h2 h3
    subst h1 h2 h3
    intro x hx
    rw [List.mem_singleton.1 hx]
    refine ⟨1, [0], by decide +kernel, by decide, ?_, rfl, ?_⟩
    · simp [Spec.MayDrop]
    · simp [Spec.RestoreSamples, Spec.IsSample]
  | k + 2 => simp [layoutDraws] at h1

/-- The hypotheses of the theorems on symmetric and asymmetric initial layouts are met. -/
example : ValidDraws (layoutStrip true) 0 layoutDraws ∧
    createInitialPdl (layoutStrip true) layoutDraws = .ok (some
      [[1, 2, 3, 4, 5, 6, 7, 8, 9, 10, 10, 9, 8, 7, 6, 5, 4, 3, 2, 1],
       [1, 2, -1, 3, 4, 5, 6, -1, 7, 8, 8, 7, -1, 6, 5, 4, 3, -1, 2, 1],
       [1, 2, -1, 3, -1, 4, 5, -1, 6, 7, 7, 6, -1, 5, 4, -1, 3, -1, 2, 1]]) :=
  ⟨layoutDraws_valid true, by decide +kernel⟩

example : ValidDraws (layoutStrip false) 0 layoutDraws ∧
    createInitialPdl (layoutStrip false) layoutDraws = .ok (some
      [[1, 2, 3, 4, 5, 6, 7, 8, 9, 10, 11],
       [1, 2, -1, 3, 4, 5, 6, -1, 7, 8, 9],
       [1, 2, -1, 3, -1, 4, 5, -1, 6, 7, 8]]) :=
  ⟨layoutDraws_valid false, by decide +kernel⟩

end Bella
