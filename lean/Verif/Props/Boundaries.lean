import Verif.Props.Reduced
import Verif.Spec.Panels
/-
Property C46: connectivity of the panels; C48: boundaries and boundary weights of the blending
strip; C49: panel weightings of the blending strip.
-/
namespace Bella

theorem mem_of_lookup {κ α : Type} [BEq κ] [LawfulBEq κ] {l : List (κ × α)} {k : κ} {v : α}
    (h : l.lookup k = some v) : (k, v) ∈ l := by
  induction l with
  | nil => simp at h
  | cons p l ih =>
    obtain ⟨k1, v1⟩ := p
    rw [List.lookup_cons] at h
    by_cases e : k = k1
    · subst e
      simp at h
      simp [h]
    · rw [beq_eq_false_iff_ne.2 e] at h
      exact List.mem_cons_of_mem _ (ih h)

theorem lookup_of_mem {κ α : Type} [BEq κ] [LawfulBEq κ] {l : List (κ × α)} {k : κ} {v : α}
    (hn : (l.map (·.1)).Nodup) (h : (k, v) ∈ l) : l.lookup k = some v := by
  induction l with
  | nil => simp at h
  | cons p l ih =>
    obtain ⟨k1, v1⟩ := p
    rw [List.lookup_cons]
    simp only [List.map_cons, List.nodup_cons] at hn
    by_cases e : k = k1
    · subst e
      rcases List.mem_cons.1 h with h2 | h2
      · simp at h2; simp [h2]
      · exact absurd (List.mem_map.2 ⟨_, h2, rfl⟩) hn.1
    · rw [beq_eq_false_iff_ne.2 e]
      rcases List.mem_cons.1 h with h2 | h2
      · simp only [Prod.mk.injEq] at h2; exact absurd h2.1 e
      · exact ih hn.2 h2

theorem idDict_lookup {panels : List PanelIds} {dict : List (Int × Nat)}
    (h : idDict panels = .ok dict) (id : Int) (e : Nat) :
    dict.lookup id = some e ↔ ∃ q, panels[e]? = some q ∧ q.ID = id := by
  unfold idDict at h
  split at h
  · cases h
  · rename_i hl
    cases h
    have hnd : (panels.map (·.ID)).Nodup := by
      rw [not_not] at hl
      have := (List.dedup_sublist (panels.map (·.ID))).eq_of_length (by simpa using hl)
      rw [← this]
      exact List.nodup_dedup _
    have key : (id, e) ∈ (panels.map (·.ID)).zipIdx ↔ ∃ q, panels[e]? = some q ∧ q.ID = id := by
      rw [List.mem_zipIdx_iff_getElem?]
      simp
    rw [← key]
    constructor
    · exact mem_of_lookup
    · apply lookup_of_mem
      rw [List.zipIdx_map_fst]
      exact hnd

theorem mem_npUniqueRows (l : List (Nat × Nat)) (x : Nat × Nat) : x ∈ npUniqueRows l ↔ x ∈ l := by
  unfold npUniqueRows
  rw [List.mem_insertionSort, List.mem_dedup]

theorem sort2_or (i e : Nat) (x : Nat × Nat) :
    (x = sort2 i e ∨ x = (sort2 i e).swap) ↔ (x = (i, e) ∨ x = (e, i)) := by
  unfold sort2
  split
  · simp
  · simp [or_comm]

theorem forall₂_mem_left {α β : Type} {R : α → β → Prop} {xs : List α} {ys : List β}
    (h : List.Forall₂ R xs ys) {x : α} (hx : x ∈ xs) : ∃ y ∈ ys, R x y := by
  induction h with
  | nil => simp at hx
  | cons h1 _ ih =>
    rcases List.mem_cons.1 hx with rfl | h2
    · exact ⟨_, by simp, h1⟩
    · obtain ⟨y, hy, hr⟩ := ih h2
      exact ⟨y, by simp [hy], hr⟩

theorem forall₂_mem_right {α β : Type} {R : α → β → Prop} {xs : List α} {ys : List β}
    (h : List.Forall₂ R xs ys) {y : β} (hy : y ∈ ys) : ∃ x ∈ xs, R x y := by
  induction h with
  | nil => simp at hy
  | cons h1 _ ih =>
    rcases List.mem_cons.1 hy with rfl | h2
    · exact ⟨_, by simp, h1⟩
    · obtain ⟨x, hx, hr⟩ := ih h2
      exact ⟨x, by simp [hx], hr⟩

theorem mem_directedBoundaries {panels : List PanelIds} {dict : List (Int × Nat)}
    {dirs : List (Nat × Nat)} (hd : idDict panels = .ok dict)
    (h : directedBoundaries panels dict = .ok dirs) (x : Nat × Nat) :
    x ∈ dirs ↔ Spec.Adj panels x.1 x.2 := by
  unfold directedBoundaries at h
  rw [bind_ok] at h
  obtain ⟨rows, hrows, hx⟩ := h
  simp only [pure, Except.pure, Except.ok.injEq] at hx
  rw [← hx, mem_npUniqueRows, List.mem_flatten]
  have hf := mapM_inv _ _ _ hrows
  have hrow : ∀ (p : PanelIds) (i : Nat) (row : List (Nat × Nat)),
      ((fun (x : PanelIds × Nat) => (do
        let ns ← x.1.neighbours.mapM (fun n => dictGet dict n)
        return ns.flatMap (fun e => [sort2 x.2 e, (sort2 x.2 e).swap]) : Py _)) (p, i)) = .ok row →
      ∀ x, x ∈ row ↔ ∃ nb ∈ p.neighbours, ∃ e, dict.lookup nb = some e ∧ (x = (i, e) ∨ x = (e, i)) := by
    intro p i row hr x
    rw [bind_ok] at hr
    obtain ⟨ns, hns, hr⟩ := hr
    simp only [pure, Except.pure, Except.ok.injEq] at hr
    rw [← hr]
    have hn2 := mapM_inv _ _ _ hns
    simp only [List.mem_flatMap, List.mem_cons, List.not_mem_nil, or_false, sort2_or]
    constructor
    · rintro ⟨e, he, hx⟩
      obtain ⟨nb, hnb, hr⟩ := forall₂_mem_right hn2 he
      exact ⟨nb, hnb, e, dictGet_eq_ok.1 hr, hx⟩
    · rintro ⟨nb, hnb, e, he, hx⟩
      obtain ⟨e', he', hr⟩ := forall₂_mem_left hn2 hnb
      rw [dictGet_eq_ok.1 hr] at he
      cases he
      exact ⟨e, he', hx⟩
  constructor
  · rintro ⟨row, hrow1, hxr⟩
    obtain ⟨⟨p, i⟩, hpi, hr⟩ := forall₂_mem_right hf hrow1
    rw [List.mem_zipIdx_iff_getElem?] at hpi
    rw [hrow p i row hr] at hxr
    obtain ⟨nb, hnb, e, he, hx⟩ := hxr
    obtain ⟨q, hq, hid⟩ := (idDict_lookup hd nb e).1 he
    subst hid
    rcases hx with rfl | rfl
    · exact ⟨p, q, hpi, hq, Or.inl hnb⟩
    · exact ⟨q, p, hq, hpi, Or.inr hnb⟩
  · rintro ⟨p, q, hp, hq, hnb⟩
    rcases hnb with hnb | hnb
    · obtain ⟨row, hrow1, hr⟩ := forall₂_mem_left hf
        (List.mem_zipIdx_iff_getElem?.2 (show panels[(p, x.1).2]? = some (p, x.1).1 from hp))
      refine ⟨row, hrow1, (hrow p x.1 row hr x).2 ⟨_, hnb, x.2, ?_, Or.inl rfl⟩⟩
      exact (idDict_lookup hd _ _).2 ⟨q, hq, rfl⟩
    · obtain ⟨row, hrow1, hr⟩ := forall₂_mem_left hf
        (List.mem_zipIdx_iff_getElem?.2 (show panels[(q, x.2).2]? = some (q, x.2).1 from hq))
      refine ⟨row, hrow1, (hrow q x.2 row hr x).2 ⟨_, hnb, x.1, ?_, Or.inr rfl⟩⟩
      exact (idDict_lookup hd _ _).2 ⟨p, hp, rfl⟩

theorem mem_addNeighbours (visited : List Nat) (c : Nat) (bs : List (Nat × Nat)) (avail : List Nat)
    (w : Nat) : w ∈ addNeighbours visited c bs avail ↔
      w ∈ avail ∨ ((c, w) ∈ bs ∧ w ∉ visited) := by
  induction bs generalizing avail with
  | nil => simp [addNeighbours]
  | cons e es ih =>
    unfold addNeighbours
    split
    · rename_i hc
      rw [ih]
      obtain ⟨h1, h2, h3⟩ := hc
      obtain ⟨e1, e2⟩ := e
      simp only at h1 h2 h3
      subst h1
      simp only [List.mem_append, List.mem_cons, List.not_mem_nil, or_false, Prod.mk.injEq, true_and]
      constructor
      · rintro ((h | h) | h)
        · exact Or.inl h
        · exact Or.inr ⟨Or.inl h, h ▸ h2⟩
        · exact Or.inr ⟨Or.inr h.1, h.2⟩
      · rintro (h | ⟨h | h, h'⟩)
        · exact Or.inl (Or.inl h)
        · exact Or.inl (Or.inr h)
        · exact Or.inr ⟨h, h'⟩
    · rename_i hc
      rw [ih]
      obtain ⟨e1, e2⟩ := e
      simp only [List.mem_cons, Prod.mk.injEq]
      constructor
      · rintro (h | h)
        · exact Or.inl h
        · exact Or.inr ⟨Or.inr h.1, h.2⟩
      · rintro (h | ⟨h | h, h'⟩)
        · exact Or.inl h
        · by_cases hw : w ∈ avail
          · exact Or.inl hw
          · exact absurd ⟨h.1.symm, by simpa [← h.2] using h', by simpa [← h.2] using hw⟩ hc
        · exact Or.inr ⟨h, h'⟩

theorem nodup_addNeighbours (visited : List Nat) (c : Nat) (bs : List (Nat × Nat))
    (avail : List Nat) (h : avail.Nodup) : (addNeighbours visited c bs avail).Nodup := by
  induction bs generalizing avail with
  | nil => simpa [addNeighbours]
  | cons e es ih =>
    unfold addNeighbours
    split
    · rename_i hc
      apply ih
      rw [List.nodup_append]
      refine ⟨h, by simp, ?_⟩
      intro a ha b hb
      simp only [List.mem_singleton] at hb
      rintro rfl
      exact hc.2.2 (hb ▸ ha)
    · exact ih _ h

theorem visitLoop_spec (pick : List Nat → Nat) (hpick : ∀ l, l ≠ [] → pick l ∈ l)
    (bs : List (Nat × Nat)) (P : Nat → Prop) (hP : ∀ a b, P a → (a, b) ∈ bs → P b) :
    ∀ (fuel : Nat) (visited avail : List Nat), (visited ++ avail).Nodup →
      (∀ x ∈ visited ++ avail, P x) →
      (∀ v ∈ visited, ∀ w, (v, w) ∈ bs → w ∈ visited ∨ w ∈ avail) →
      0 ∈ visited ++ avail →
      (visitLoop pick bs fuel visited avail).Nodup ∧
      (∀ x ∈ visitLoop pick bs fuel visited avail, P x) ∧
      ((visitLoop pick bs fuel visited avail).length = visited.length + fuel ∨
        (0 ∈ visitLoop pick bs fuel visited avail ∧
         ∀ v ∈ visitLoop pick bs fuel visited avail, ∀ w, (v, w) ∈ bs →
          w ∈ visitLoop pick bs fuel visited avail)) := by
  intro fuel
  induction fuel with
  | zero =>
    intro visited avail h1 h2 _ _
    unfold visitLoop
    exact ⟨(List.nodup_append.1 h1).1, fun x hx => h2 x (by simp [hx]), Or.inl rfl⟩
  | succ fuel ih =>
    intro visited avail h1 h2 h3 h4
    unfold visitLoop
    by_cases ha : avail = []
    · rw [if_pos ha]
      subst ha
      simp only [List.append_nil] at h1 h2 h4
      refine ⟨h1, h2, Or.inr ⟨h4, ?_⟩⟩
      intro v hv w hw
      simpa using h3 v hv w hw
    · rw [if_neg ha]
      have hc := hpick avail ha
      obtain ⟨n1, n2, n3⟩ := List.nodup_append.1 h1
      have hcv : pick avail ∉ visited := fun hv => n3 _ hv _ hc rfl
      have herase : ∀ x, x ∈ avail.erase (pick avail) ↔ x ≠ pick avail ∧ x ∈ avail :=
        fun x => n2.mem_erase_iff
      have := ih (visited ++ [pick avail])
        (addNeighbours (visited ++ [pick avail]) (pick avail) bs (avail.erase (pick avail)))
        ?_ ?_ ?_ ?_
      · simp only [List.length_append, List.length_singleton] at this
        simp only
        refine ⟨this.1, this.2.1, ?_⟩
        rcases this.2.2 with h | h
        · exact Or.inl (by omega)
        · exact Or.inr h
      · rw [List.nodup_append]
        refine ⟨?_, nodup_addNeighbours _ _ _ _ (n2.erase _), ?_⟩
        · rw [List.nodup_append]
          refine ⟨n1, by simp, ?_⟩
          intro a ha' b hb
          simp only [List.mem_singleton] at hb
          rintro rfl
          exact hcv (hb ▸ ha')
        · intro a ha' b hb
          rintro rfl
          rw [mem_addNeighbours] at hb
          rcases hb with hb | hb
          · rw [herase] at hb
            rcases List.mem_append.1 ha' with h | h
            · exact n3 _ h _ hb.2 rfl
            · exact hb.1 (by simpa using h)
          · exact hb.2 ha'
      · intro x hx
        rw [List.mem_append, mem_addNeighbours] at hx
        rcases hx with hx | hx | hx
        · rcases List.mem_append.1 hx with h | h
          · exact h2 x (by simp [h])
          · simp only [List.mem_singleton] at h
            exact h2 x (by rw [h]; simp [hc])
        · exact h2 x (by simp [((herase x).1 hx).2])
        · exact hP _ _ (h2 (pick avail) (by simp [hc])) hx.1
      · intro v hv w hw
        rw [mem_addNeighbours]
        rcases List.mem_append.1 hv with h | h
        · rcases h3 v h w hw with h' | h'
          · exact Or.inl (by simp [h'])
          · by_cases e : w = pick avail
            · exact Or.inl (by simp [e])
            · exact Or.inr (Or.inl ((herase w).2 ⟨e, h'⟩))
        · simp only [List.mem_singleton] at h
          subst h
          by_cases e : w ∈ visited ++ [pick avail]
          · exact Or.inl e
          · exact Or.inr (Or.inr ⟨hw, e⟩)
      · rw [List.mem_append, mem_addNeighbours]
        rcases List.mem_append.1 h4 with h | h
        · exact Or.inl (by simp [h])
        · by_cases e : 0 = pick avail
          · exact Or.inl (by simp [e])
          · exact Or.inr (Or.inl ((herase 0).2 ⟨e, h⟩))

theorem adj_symm {panels : List PanelIds} {i j : Nat} (h : Spec.Adj panels i j) :
    Spec.Adj panels j i := by
  obtain ⟨p, q, hp, hq, h⟩ := h
  exact ⟨q, p, hq, hp, h.symm⟩

theorem reach_symm {panels : List PanelIds} {i j : Nat}
    (h : Relation.ReflTransGen (Spec.Adj panels) i j) :
    Relation.ReflTransGen (Spec.Adj panels) j i := by
  induction h with
  | refl => exact .refl
  | tail _ hbc ih => exact Relation.ReflTransGen.head (adj_symm hbc) ih

/-- C46: whatever order the set of nodes is explored in, the connectivity test succeeds exactly for
the structures in which any two panels are joined by a chain of neighbouring panels. -/
theorem C46_connectivity (pick : List Nat → Nat) (hpick : ∀ l, l ≠ [] → pick l ∈ l)
    (panels : List PanelIds) (dict : List (Int × Nat)) (dirs : List (Nat × Nat))
    (hd : idDict panels = .ok dict) (hb : directedBoundaries panels dict = .ok dirs) :
    allConnected pick panels.length dirs = true ↔ Spec.ConnectedPanels panels := by
  unfold allConnected
  rw [beq_iff_eq]
  rcases Nat.eq_zero_or_pos panels.length with h0 | hpos
  · rw [h0]
    refine iff_of_true rfl ?_
    intro i j hi
    omega
  have hmem := mem_directedBoundaries hd hb
  have hlt : ∀ a b, (a, b) ∈ dirs → b < panels.length := by
    intro a b hab
    obtain ⟨p, q, _, hq, _⟩ := (hmem (a, b)).1 hab
    exact (List.getElem?_eq_some_iff.1 hq).1
  obtain ⟨s1, s2, s3⟩ := visitLoop_spec pick hpick dirs
    (fun x => x < panels.length ∧ Relation.ReflTransGen (Spec.Adj panels) 0 x)
    (fun a b ha hab => ⟨hlt a b hab, ha.2.tail ((hmem (a, b)).1 hab)⟩)
    panels.length [] [0] (by simp) (by simp [hpos, Relation.ReflTransGen.refl]) (by simp) (by simp)
  generalize visitLoop pick dirs panels.length [] [0] = R at *
  simp only [List.length_nil, zero_add] at s3
  have hsub : R ⊆ List.range panels.length := fun x hx => List.mem_range.2 (s2 x hx).1
  constructor
  · intro hl i j hi hj
    have hperm : R.Perm (List.range panels.length) := by
      apply (s1.subperm hsub).perm_of_length_le
      simp [hl]
    have hall : ∀ k, k < panels.length → Relation.ReflTransGen (Spec.Adj panels) 0 k := by
      intro k hk
      exact (s2 k (hperm.mem_iff.2 (List.mem_range.2 hk))).2
    exact (reach_symm (hall i hi)).trans (hall j hj)
  · intro hc
    rcases s3 with h | ⟨h0, hcl⟩
    · exact h
    · have hall : ∀ k, k < panels.length → k ∈ R := by
        intro k hk
        have := hc 0 k hpos hk
        clear hk
        induction this with
        | refl => exact h0
        | tail _ hbc ih => exact hcl _ ih _ ((hmem (_, _)).2 hbc)
      have hsub2 : List.range panels.length ⊆ R := fun x hx => hall x (List.mem_range.1 hx)
      have l1 := (s1.subperm hsub).length_le
      have l2 := ((List.nodup_range (n := panels.length)).subperm hsub2).length_le
      simp at l1 l2
      omega

/-- C46 at the level of the constructor: when it succeeds the panels are connected, have distinct
IDs, and the boundaries are the pairs of adjacent panels, each once, indices in increasing order. -/
theorem C46_boundaries (pick : List Nat → Nat) (hpick : ∀ l, l ≠ [] → pick l ∈ l)
    (panels : List PanelIds) (weights : Option (List ((Int × Int) × ℚ)))
    (bs : List (Nat × Nat)) (bw : List ((Nat × Nat) × ℚ))
    (h : calcPanelBoundaryDict pick panels weights = .ok (bs, bw)) :
    Spec.ConnectedPanels panels ∧ bs.Nodup ∧
      ∀ i j, (i, j) ∈ bs ↔ i ≤ j ∧ Spec.Adj panels i j := by
  unfold calcPanelBoundaryDict at h
  simp only [bind_ok] at h
  obtain ⟨dict, hd, dirs, hb, _, hc, bw', hw, hr⟩ := h
  simp only [pure, Except.pure, Except.ok.injEq, Prod.mk.injEq] at hr
  obtain ⟨rfl, rfl⟩ := hr
  split at hc
  · rename_i hcon
    refine ⟨(C46_connectivity pick hpick panels dict dirs hd hb).1 hcon, ?_, ?_⟩
    · unfold npUniqueRows
      exact ((List.perm_insertionSort _ _).nodup_iff).2 (List.nodup_dedup _)
    · intro i j
      rw [mem_npUniqueRows, List.mem_map]
      constructor
      · rintro ⟨⟨a, b⟩, hab, e⟩
        have := (mem_directedBoundaries hd hb (a, b)).1 hab
        unfold sort2 at e
        split at e <;> (cases e)
        · exact ⟨by assumption, this⟩
        · exact ⟨by simp only at *; omega, adj_symm this⟩
      · rintro ⟨hij, hadj⟩
        exact ⟨(i, j), (mem_directedBoundaries hd hb (i, j)).2 hadj, by simp [sort2, hij]⟩
  · cases hc


/-! ### C48 -/

theorem getElem?_of_getD' {u : List Nat} {i : Nat} (h : i < u.length) :
    u[i]? = some (u.getD i 0) := by
  simp [List.getD_eq_getElem?_getD, h]

theorem reduceBoundaries_spec (guide : List Nat) (bs : List (Nat × Nat)) :
    ∀ acc res, bs.foldlM (init := acc) (fun acc b => do
        let e1 ← pyGet guide b.1
        let e2 ← pyGet guide b.2
        let loc := sort2 e1 e2
        if loc ∉ acc ∧ e1 ≠ e2 then return acc ++ [loc] else return acc : _ → _ → Py _) = .ok res →
      (acc.Nodup → res.Nodup) ∧
      ∀ x, x ∈ res ↔ x ∈ acc ∨ ∃ b ∈ bs, ∃ e1 e2, guide[b.1]? = some e1 ∧ guide[b.2]? = some e2 ∧
        e1 ≠ e2 ∧ sort2 e1 e2 = x := by
  induction bs with
  | nil =>
    intro acc res h
    simp only [List.foldlM_nil, pure, Except.pure, Except.ok.injEq] at h
    subst h
    simp
  | cons b bs ih =>
    intro acc res h
    rw [List.foldlM_cons, bind_ok] at h
    obtain ⟨acc', h1, h2⟩ := h
    simp only [bind_ok] at h1
    obtain ⟨e1, he1, e2, he2, h1⟩ := h1
    rw [pyGet_eq_ok] at he1 he2
    obtain ⟨i1, i2⟩ := ih acc' res h2
    split at h1
    · rename_i hc
      simp only [pure, Except.pure, Except.ok.injEq] at h1
      subst h1
      refine ⟨fun hn => i1 ?_, ?_⟩
      · rw [List.nodup_append]
        refine ⟨hn, by simp, ?_⟩
        intro a ha c hcc
        simp only [List.mem_singleton] at hcc
        rintro rfl
        exact hc.1 (hcc ▸ ha)
      · intro x
        rw [i2]
        simp only [List.mem_append, List.mem_cons, List.not_mem_nil, or_false]
        constructor
        · rintro ((h | h) | ⟨b', hb', h⟩)
          · exact Or.inl h
          · exact Or.inr ⟨b, Or.inl rfl, e1, e2, he1, he2, hc.2, h.symm⟩
          · exact Or.inr ⟨b', Or.inr hb', h⟩
        · rintro (h | ⟨b', rfl | hb', h⟩)
          · exact Or.inl (Or.inl h)
          · obtain ⟨f1, f2, hf1, hf2, _, hx⟩ := h
            rw [he1] at hf1; rw [he2] at hf2
            cases hf1; cases hf2
            exact Or.inl (Or.inr hx.symm)
          · exact Or.inr ⟨b', hb', h⟩
    · rename_i hc
      simp only [pure, Except.pure, Except.ok.injEq] at h1
      subst h1
      refine ⟨i1, ?_⟩
      intro x
      rw [i2]
      simp only [List.mem_cons]
      constructor
      · rintro (h | ⟨b', hb', h⟩)
        · exact Or.inl h
        · exact Or.inr ⟨b', Or.inr hb', h⟩
      · rintro (h | ⟨b', rfl | hb', h⟩)
        · exact Or.inl h
        · obtain ⟨f1, f2, hf1, hf2, hne, hx⟩ := h
          rw [he1] at hf1; rw [he2] at hf2
          cases hf1; cases hf2
          by_cases hm : x ∈ acc
          · exact Or.inl hm
          · exact absurd ⟨by rwa [hx], hne⟩ hc
        · exact Or.inr ⟨b', hb', h⟩

theorem sort2_lt (e1 e2 : Nat) (a b : Nat) : (e1 ≠ e2 ∧ sort2 e1 e2 = (a, b)) ↔
    a < b ∧ ((e1 = a ∧ e2 = b) ∨ (e1 = b ∧ e2 = a)) := by
  unfold sort2
  split <;> simp only [Prod.mk.injEq] <;> omega

/-- C48: the boundaries of the blending strip are, each once, the pairs of reduced panels joined by
a boundary of the structure. -/
theorem C48_strip_boundaries (plies : List Nat) (sym : Bool) (nRef : Int) (bs : List (Nat × Nat))
    (bw : List ((Nat × Nat) × ℚ)) (r : Reduced) (h : mkReduced plies sym nRef bs bw = .ok r) :
    r.boundaries.Nodup ∧ ∀ a b, (a, b) ∈ r.boundaries ↔ a < b ∧ ∃ p q na nb : Nat,
      ((p, q) ∈ bs ∨ (q, p) ∈ bs) ∧ plies[p]? = some na ∧ plies[q]? = some nb ∧
      r.nPlies[a]? = some na ∧ r.nPlies[b]? = some nb := by
  obtain ⟨h1, _, h3, _, _, hb, _⟩ := mkReduced_inv h
  obtain ⟨s1, s2⟩ := reduceBoundaries_spec _ _ _ _ hb
  obtain ⟨hsort, _⟩ := C15_reduction plies sym nRef bs bw r h
  have hnd : r.nPlies.Nodup := hsort.imp (fun h => Nat.ne_of_lt h)
  have hg : ∀ p a : Nat, r.indPanelsGuide[p]? = some a ↔
      ∃ n : Nat, plies[p]? = some n ∧ r.nPlies[a]? = some n := by
    intro p a
    rw [h3, ← h1, List.getElem?_map, Option.map_eq_some_iff]
    constructor
    · rintro ⟨n, hn, rfl⟩
      refine ⟨n, hn, getElem?_idxOf ?_⟩
      rw [h1, mem_npUniqueNat]
      exact List.mem_of_getElem? hn
    · rintro ⟨n, hn, hna⟩
      refine ⟨n, hn, ?_⟩
      obtain ⟨hi, rfl⟩ := List.getElem?_eq_some_iff.1 hna
      exact hnd.idxOf_getElem a hi
  refine ⟨s1 (by simp), ?_⟩
  intro a b
  rw [s2]
  simp only [List.not_mem_nil, false_or]
  constructor
  · rintro ⟨⟨p, q⟩, hpq, e1, e2, he1, he2, hx⟩
    rw [sort2_lt] at hx
    obtain ⟨hlt, hx⟩ := hx
    obtain ⟨n1, hn1, hm1⟩ := (hg _ _).1 he1
    obtain ⟨n2, hn2, hm2⟩ := (hg _ _).1 he2
    rcases hx with ⟨rfl, rfl⟩ | ⟨rfl, rfl⟩
    · exact ⟨hlt, p, q, n1, n2, Or.inl hpq, hn1, hn2, hm1, hm2⟩
    · exact ⟨hlt, q, p, n2, n1, Or.inr hpq, hn2, hn1, hm2, hm1⟩
  · rintro ⟨hlt, p, q, na, nb, hpq, hp, hq, ha, hb'⟩
    have gp := (hg p a).2 ⟨na, hp, ha⟩
    have gq := (hg q b).2 ⟨nb, hq, hb'⟩
    rcases hpq with hpq | hpq
    · exact ⟨(p, q), hpq, a, b, gp, gq, (sort2_lt _ _ _ _).2 ⟨hlt, Or.inl ⟨rfl, rfl⟩⟩⟩
    · exact ⟨(q, p), hpq, b, a, gq, gp, (sort2_lt _ _ _ _).2 ⟨hlt, Or.inr ⟨rfl, rfl⟩⟩⟩

theorem reduceBoundaryWeights_spec (guide : List Nat) (bs : List (Nat × Nat))
    (bw : List ((Nat × Nat) × ℚ)) :
    ∀ d res, bs.foldlM (init := d) (fun d b => do
        let weight ← dictGet bw (b.1, b.2)
        let e1 ← pyGet guide b.1
        let e2 ← pyGet guide b.2
        let k := sort2 e1 e2
        if k.1 ≠ k.2 then
          match d.lookup k with
          | some w => return dictSet d k (w + weight)
          | none => return dictSet d k weight
        else return d : _ → _ → Py _) = .ok res →
      ∀ k : Nat × Nat, k.1 ≠ k.2 →
        (res.lookup k).getD 0 = (d.lookup k).getD 0 +
          ((bs.filter (fun b => decide (sort2 (guide.getD b.1 0) (guide.getD b.2 0) = k))).map
            (fun b => (bw.lookup b).getD 0)).sum ∧
        ((res.lookup k).isSome ↔ (d.lookup k).isSome ∨
          ∃ b ∈ bs, sort2 (guide.getD b.1 0) (guide.getD b.2 0) = k) := by
  induction bs with
  | nil =>
    intro d res h
    simp only [List.foldlM_nil, pure, Except.pure, Except.ok.injEq] at h
    subst h
    simp
  | cons b bs ih =>
    intro d res h k hk
    rw [List.foldlM_cons, bind_ok] at h
    obtain ⟨d', h1, h2⟩ := h
    simp only [bind_ok] at h1
    obtain ⟨w, hw, e1, he1, e2, he2, h1⟩ := h1
    rw [pyGet_eq_ok] at he1 he2
    rw [dictGet_eq_ok] at hw
    have g1 : guide.getD b.1 0 = e1 := by simp [List.getD_eq_getElem?_getD, he1]
    have g2 : guide.getD b.2 0 = e2 := by simp [List.getD_eq_getElem?_getD, he2]
    obtain ⟨i1, i2⟩ := ih d' res h2 k hk
    rw [i1]
    simp only [List.filter_cons, g1, g2, List.mem_cons, exists_eq_or_imp]
    rw [i2]
    split at h1
    · rename_i hne
      have hd' : d'.lookup k = if k = sort2 e1 e2 then
          some ((d.lookup (sort2 e1 e2)).getD 0 + w) else d.lookup k := by
        cases hl : d.lookup (sort2 e1 e2) with
        | none =>
          rw [hl] at h1
          simp only [pure, Except.pure, Except.ok.injEq] at h1
          rw [← h1, lookup_dictSet]
          simp
        | some w' =>
          rw [hl] at h1
          simp only [pure, Except.pure, Except.ok.injEq] at h1
          rw [← h1, lookup_dictSet]
          simp
      rw [hd']
      by_cases hkk : k = sort2 e1 e2
      · subst hkk
        simp only [if_true, decide_true, Option.getD_some, List.map_cons, List.sum_cons]
        refine ⟨?_, by simp⟩
        rw [show (b : Nat × Nat) = (b.1, b.2) from rfl, hw]
        simp only [Option.getD_some]
        ring
      · have : ¬ (sort2 e1 e2 = k) := fun h => hkk h.symm
        simp [hkk, this]
    · rename_i hne
      simp only [pure, Except.pure, Except.ok.injEq] at h1
      subst h1
      have : ¬ (sort2 e1 e2 = k) := by
        intro h; subst h; exact hne hk
      simp [this]

theorem reduceBoundaryWeights_diag (guide : List Nat) (bs : List (Nat × Nat))
    (bw : List ((Nat × Nat) × ℚ)) :
    ∀ d res, bs.foldlM (init := d) (fun d b => do
        let weight ← dictGet bw (b.1, b.2)
        let e1 ← pyGet guide b.1
        let e2 ← pyGet guide b.2
        let k := sort2 e1 e2
        if k.1 ≠ k.2 then
          match d.lookup k with
          | some w => return dictSet d k (w + weight)
          | none => return dictSet d k weight
        else return d : _ → _ → Py _) = .ok res →
      ∀ k : Nat × Nat, k.1 = k.2 → res.lookup k = d.lookup k := by
  induction bs with
  | nil =>
    intro d res h
    simp only [List.foldlM_nil, pure, Except.pure, Except.ok.injEq] at h
    subst h
    simp
  | cons b bs ih =>
    intro d res h k hk
    rw [List.foldlM_cons, bind_ok] at h
    obtain ⟨d', h1, h2⟩ := h
    simp only [bind_ok] at h1
    obtain ⟨w, hw, e1, he1, e2, he2, h1⟩ := h1
    rw [ih d' res h2 k hk]
    split at h1
    · rename_i hne
      have hkk : k ≠ sort2 e1 e2 := by rintro rfl; exact hne hk
      split at h1 <;>
      · simp only [pure, Except.pure, Except.ok.injEq] at h1
        rw [← h1, lookup_dictSet, if_neg hkk]
    · simp only [pure, Except.pure, Except.ok.injEq] at h1
      rw [h1]

/-- C48: the weight of a boundary of the strip is the sum of the weights of the structure's
boundaries it stands for. -/
theorem C48_strip_weights (plies : List Nat) (sym : Bool) (nRef : Int) (bs : List (Nat × Nat))
    (bw : List ((Nat × Nat) × ℚ)) (r : Reduced) (h : mkReduced plies sym nRef bs bw = .ok r)
    (hbs : ∀ b ∈ bs, b.1 < plies.length ∧ b.2 < plies.length) (a b : Nat) :
    ((r.boundaryWeights.lookup (a, b)).isSome ↔ (a, b) ∈ r.boundaries) ∧
    (a < b → (r.boundaryWeights.lookup (a, b)).getD 0 =
      ((bs.filter (fun c => decide (
          (r.nPlies[a]? = plies[c.1]? ∧ r.nPlies[b]? = plies[c.2]?) ∨
          (r.nPlies[a]? = plies[c.2]? ∧ r.nPlies[b]? = plies[c.1]?)))).map
        (fun c => (bw.lookup c).getD 0)).sum) := by
  obtain ⟨h1, _, h3, _, _, hb, hw, _⟩ := mkReduced_inv h
  obtain ⟨hsort, _⟩ := C15_reduction plies sym nRef bs bw r h
  have hnd : r.nPlies.Nodup := hsort.imp (fun h => Nat.ne_of_lt h)
  have hg : ∀ p n : Nat, plies[p]? = some n → ∀ a : Nat,
      (r.indPanelsGuide.getD p 0 = a ↔ r.nPlies[a]? = some n) := by
    intro p n hn a
    have e : r.indPanelsGuide.getD p 0 = r.nPlies.idxOf n := by
      rw [h3, ← h1, List.getD_eq_getElem?_getD, List.getElem?_map, hn]; rfl
    have hm : n ∈ r.nPlies := by rw [h1, mem_npUniqueNat]; exact List.mem_of_getElem? hn
    rw [e]
    constructor
    · rintro rfl; exact getElem?_idxOf hm
    · intro hna
      obtain ⟨hi, rfl⟩ := List.getElem?_eq_some_iff.1 hna
      exact hnd.idxOf_getElem a hi
  have hsome := reduceBoundaryWeights_spec _ _ _ _ _ hw
  have hmem : ∀ c ∈ bs, a < b →
      (sort2 (r.indPanelsGuide.getD c.1 0) (r.indPanelsGuide.getD c.2 0) = (a, b) ↔
        (r.nPlies[a]? = plies[c.1]? ∧ r.nPlies[b]? = plies[c.2]?) ∨
          (r.nPlies[a]? = plies[c.2]? ∧ r.nPlies[b]? = plies[c.1]?)) := by
    intro c hc hlt
    obtain ⟨l1, l2⟩ := hbs c hc
    have p1 : plies[c.1]? = some plies[c.1] := List.getElem?_eq_getElem l1
    have p2 : plies[c.2]? = some plies[c.2] := List.getElem?_eq_getElem l2
    rw [p1, p2, ← hg _ _ p1, ← hg _ _ p2, ← hg _ _ p1, ← hg _ _ p2]
    unfold sort2
    split <;> simp only [Prod.mk.injEq] <;> omega
  constructor
  · rcases Nat.lt_trichotomy a b with hlt | rfl | hlt
    · have := (hsome (a, b) (by simp only; omega)).2
      rw [this]
      obtain ⟨s1, s2⟩ := reduceBoundaries_spec _ _ _ _ hb
      have : (a, b) ∈ r.boundaries ↔
          ∃ c ∈ bs, sort2 (r.indPanelsGuide.getD c.1 0) (r.indPanelsGuide.getD c.2 0) = (a, b) := by
        rw [s2]
        simp only [List.not_mem_nil, false_or]
        constructor
        · rintro ⟨c, hc, e1, e2, he1, he2, _, hx⟩
          refine ⟨c, hc, ?_⟩
          simpa [List.getD_eq_getElem?_getD, he1, he2] using hx
        · rintro ⟨c, hc, hx⟩
          obtain ⟨l1, l2⟩ := hbs c hc
          have gl : r.indPanelsGuide.length = plies.length := by rw [h3]; simp
          refine ⟨c, hc, _, _, getElem?_of_getD' (by omega), getElem?_of_getD' (by omega), ?_, hx⟩
          intro he
          rw [he] at hx
          simp only [sort2, le_refl, if_true, Prod.mk.injEq] at hx
          omega
      rw [this]
      simp only [List.lookup_nil, Option.isSome_none, Bool.false_eq_true, false_or]
    · rw [reduceBoundaryWeights_diag _ _ _ _ _ hw (a, a) rfl]
      simp only [List.lookup_nil, Option.isSome_none, Bool.false_eq_true, false_iff]
      intro h'
      have := ((C48_strip_boundaries plies sym nRef bs bw r h).2 a a).1 h'
      omega
    · have := (hsome (a, b) (by simp only; omega)).2
      rw [this]
      have nomem : ∀ x y : Nat, sort2 x y ≠ (a, b) := by
        intro x y; unfold sort2; split <;> simp only [ne_eq, Prod.mk.injEq] <;> omega
      have nomem2 : (a, b) ∉ r.boundaries := by
        intro h
        have := ((C48_strip_boundaries plies sym nRef bs bw r (by assumption)).2 a b).1 h
        omega
      simp only [List.lookup_nil, Option.isSome_none, Bool.false_eq_true, false_or, nomem,
        and_false, exists_false, nomem2]
  · intro hlt
    have := (hsome (a, b) (by simp only; omega)).1
    rw [this]
    simp only [List.lookup_nil, Option.getD_none, zero_add]
    congr 2
    apply List.filter_congr
    intro c hc
    exact decide_eq_decide.2 (hmem c hc hlt)


theorem adj_lt {panels : List PanelIds} {i j : Nat} (h : Spec.Adj panels i j) :
    i < panels.length ∧ j < panels.length := by
  obtain ⟨p, q, hp, hq, _⟩ := h
  exact ⟨(List.getElem?_eq_some_iff.1 hp).1, (List.getElem?_eq_some_iff.1 hq).1⟩

theorem boundaryKey_ok {panels : List PanelIds} {dict : List (Int × Nat)}
    (hd : idDict panels = .ok dict) (b : Nat × Nat) (h1 : b.1 < panels.length)
    (h2 : b.2 < panels.length) (hle : b.1 ≤ b.2) : boundaryKey panels dict b = .ok b := by
  have aux : ∀ i, i < panels.length →
      dictGet dict (panels.getD i ⟨0, []⟩).ID = .ok i := by
    intro i hi
    rw [dictGet_eq_ok, idDict_lookup hd]
    refine ⟨panels[i], List.getElem?_eq_getElem hi, ?_⟩
    simp [List.getD_eq_getElem?_getD, hi]
  unfold boundaryKey
  rw [aux _ h1, aux _ h2]
  simp [bind, Except.bind, pure, Except.pure, sort2, hle]

/-- C48: with the default weights, each boundary of the structure has weight one, so that reducing
the structure cannot fail for want of a weight. -/
theorem C48_default_weights (pick : List Nat → Nat) (hpick : ∀ l, l ≠ [] → pick l ∈ l)
    (panels : List PanelIds) (bs : List (Nat × Nat)) (bw : List ((Nat × Nat) × ℚ))
    (h : calcPanelBoundaryDict pick panels none = .ok (bs, bw)) :
    ∀ b, bw.lookup b = if b ∈ bs then some 1 else none := by
  have hspec := (C46_boundaries pick hpick panels none bs bw h).2.2
  unfold calcPanelBoundaryDict at h
  simp only [bind_ok] at h
  obtain ⟨dict, hd, dirs, hb, _, hc, bw', hw, hr⟩ := h
  simp only [pure, Except.pure, Except.ok.injEq, Prod.mk.injEq] at hr
  obtain ⟨e1, rfl⟩ := hr
  rw [e1] at hw
  unfold mkBoundaryWeights at hw
  simp only at hw
  have gen : ∀ (l : List (Nat × Nat)) (d res : List ((Nat × Nat) × ℚ)), (∀ x ∈ l, x ∈ bs) →
      l.foldlM (init := d) (fun d b => do
        let m ← boundaryKey panels dict b
        return dictSet d m 1 : _ → _ → Py _) = .ok res →
      ∀ b, res.lookup b = if b ∈ l then some 1 else d.lookup b := by
    intro l
    induction l with
    | nil =>
      intro d res _ h
      simp only [List.foldlM_nil, pure, Except.pure, Except.ok.injEq] at h
      subst h
      simp
    | cons x l ih =>
      intro d res hl h b
      rw [List.foldlM_cons, bind_ok] at h
      obtain ⟨d', h1, h2⟩ := h
      have hx := (hspec x.1 x.2).1 (hl x (by simp))
      obtain ⟨l1, l2⟩ := adj_lt hx.2
      rw [boundaryKey_ok hd x l1 l2 hx.1] at h1
      simp only [bind, Except.bind, pure, Except.pure, Except.ok.injEq] at h1
      rw [ih d' res (fun y hy => hl y (by simp [hy])) h2 b, ← h1, lookup_dictSet]
      by_cases hbl : b ∈ l
      · simp [hbl]
      · by_cases hbx : b = x
        · simp [hbx]
        · simp [hbx, hbl]
  intro b
  rw [gen bs [] bw' (fun _ h => h) hw b]
  simp

/-- C48, violation: boundary weights given with the IDs in decreasing order (a layout the
constructor accepts, and looks up on purpose) make the reduction fail with a KeyError. -/
theorem C48_reversed_key_violation :
    ∃ bs bw, calcPanelBoundaryDict (fun l => l.headD 0) [⟨1, [2]⟩, ⟨2, [1]⟩] (some [((2, 1), 3)])
        = .ok (bs, bw) ∧ bs = [(0, 1)] ∧ bw = [((1, 0), 3)] ∧
      mkReduced [16, 12] true 12 bs bw = .error .keyError := by
  exact ⟨[(0, 1)], [((1, 0), 3)], by decide +kernel, rfl, rfl, by decide +kernel⟩

/-- C48, violation: a zero boundary weight (not negative) is rejected as missing. -/
theorem C48_zero_weight_violation :
    calcPanelBoundaryDict (fun l => l.headD 0) [⟨1, [2]⟩, ⟨2, [1]⟩] (some [((1, 2), 0)])
        = .error (.exc "Missing boundary weightings.") := by
  decide +kernel

/-- Hypotheses of C46 and C48 are met: three panels in a row. -/
example : ∃ bs bw, calcPanelBoundaryDict (fun l => l.headD 0)
    [⟨1, [2]⟩, ⟨2, [3]⟩, ⟨3, []⟩] none = .ok (bs, bw) ∧ bs = [(0, 1), (1, 2)] ∧
    ∃ r, mkReduced [16, 12, 16] true 12 bs bw = .ok r ∧ r.boundaries = [(0, 1)] ∧
      r.boundaryWeights = [((0, 1), 2)] := by
  refine ⟨[(0, 1), (1, 2)], [((0, 1), 1), ((1, 2), 1)], by decide +kernel, rfl,
    ⟨[12, 16], [1, 0], [1, 0, 1], 0, [(0, 1)], [((0, 1), 2)], [],
      [⟨1, 12, 14, true, 0⟩, ⟨1, 14, 16, false, 0⟩]⟩, ?_, rfl, rfl⟩
  decide +kernel

example : ∀ l : List Nat, l ≠ [] → l.headD 0 ∈ l := by
  intro l hl
  cases l with
  | nil => exact absurd rfl hl
  | cons a t => simp

/-! ### C49 -/

theorem idxOf_npUnique_of_sorted {plies : List Nat} (h : plies.Pairwise (· < ·)) :
    npUniqueNat plies = plies := by
  unfold npUniqueNat
  have hn : plies.Nodup := h.imp (fun h => Nat.ne_of_lt h)
  rw [hn.dedup]
  exact (h.imp (fun h => Nat.le_of_lt h)).insertionSort_eq

/-- C49: when the panels of the structure are already the blending strip (strictly increasing ply
counts), the weighting of each panel of the strip is its own. -/
theorem C49_weightings_sorted (plies : List Nat) (weights : List ℚ)
    (hs : plies.Pairwise (· < ·)) (hl : weights.length = plies.length) (sym : Bool) (nRef : Int)
    (bs : List (Nat × Nat)) (bw : List ((Nat × Nat) × ℚ)) (r : Reduced)
    (h : mkReduced plies sym nRef bs bw = .ok r) :
    actualPanelWeightings r.indPanelsGuide weights = weights := by
  obtain ⟨_, _, h3, _⟩ := mkReduced_inv h
  rw [idxOf_npUnique_of_sorted hs] at h3
  have hn : plies.Nodup := hs.imp (fun h => Nat.ne_of_lt h)
  have hg : ∀ i, i < weights.length → r.indPanelsGuide.getD i 0 = i := by
    intro i hi
    rw [hl] at hi
    rw [h3]
    simp [List.getD_eq_getElem?_getD, hi, hn.idxOf_getElem]
  unfold actualPanelWeightings
  have gen : ∀ (suf pre : List ℚ), pre ++ suf = weights →
      (suf.zipIdx pre.length).foldl (fun acc (w, i) =>
        let j := r.indPanelsGuide.getD i 0
        acc.set j (acc.getD j 0 + w)) (pre ++ List.replicate suf.length 0) = weights := by
    intro suf
    induction suf with
    | nil => intro pre h; simpa using h
    | cons w suf ih =>
      intro pre h
      have e := hg pre.length (by rw [← h]; simp)
      simp only [List.zipIdx_cons, List.foldl_cons, e]
      have := ih (pre ++ [w]) (by simpa using h)
      simp only [List.length_append, List.length_singleton] at this
      rw [← this]
      congr 1
      simp [List.replicate_succ, List.getD_eq_getElem?_getD]
  exact gen weights [] rfl

/-- C49, violation: for a structure listing the thick panel first, the weightings of the two panels
of the strip (12 and 16 plies, with weightings 1/4 and 3/4) are swapped. -/
theorem C49_unsorted_violation :
    ∃ r, mkReduced [16, 12] true 12 [] [] = .ok r ∧ r.nPlies = [12, 16] ∧
      r.indForReduc.map (fun i => [(3 / 4 : ℚ), 1 / 4].getD i 0) = [1 / 4, 3 / 4] ∧
      actualPanelWeightings r.indPanelsGuide [1 / 4, 3 / 4] = [3 / 4, 1 / 4] := by
  refine ⟨⟨[12, 16], [1, 0], [1, 0], 0, [], [], [],
    [⟨1, 12, 14, true, 0⟩, ⟨1, 14, 16, false, 0⟩]⟩, by decide +kernel, rfl, by decide +kernel,
    by decide +kernel⟩

example : ∃ r, mkReduced [12, 16] true 12 [] [] = .ok r ∧
    actualPanelWeightings r.indPanelsGuide [1 / 4, 3 / 4] = [1 / 4, 3 / 4] := by
  refine ⟨⟨[12, 16], [0, 1], [0, 1], 0, [], [], [],
    [⟨1, 12, 14, true, 0⟩, ⟨1, 14, 16, false, 0⟩]⟩, by decide +kernel, by decide +kernel⟩

end Bella
