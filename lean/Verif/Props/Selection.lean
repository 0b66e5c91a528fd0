import Verif.Proofs.Search
import Verif.Spec.Search
/-
Property C37: pruning of the nodes of the beam search.
-/
namespace Bella

variable {V : Type}

/-- All the tables have one entry per active node. -/
def Aligned (t : Tabs V) (n : Nat) : Prop :=
  t.bots.length = n ∧ t.tops.length = n ∧ t.lampams.length = n ∧ t.counts.length = n ∧
    t.objs.length = n ∧ t.objsNo.length = n

/-- `t'` consists of the nodes of `t` at the positions `kept`, for all the tables. -/
def Selects (kept : List Nat) (t t' : Tabs V) : Prop :=
  t'.bots = kept.filterMap (fun i => t.bots[i]?) ∧ t'.tops = kept.filterMap (fun i => t.tops[i]?) ∧
  t'.lampams = kept.filterMap (fun i => t.lampams[i]?) ∧
  t'.counts = kept.filterMap (fun i => t.counts[i]?) ∧
  t'.objs = kept.filterMap (fun i => t.objs[i]?) ∧
  t'.objsNo = kept.filterMap (fun i => t.objsNo[i]?)

theorem selects_of_delete (D : List Nat) (hD : D.Nodup) (t : Tabs V) (n : Nat) (h : Aligned t n) :
    Selects ((List.range n).filter (fun i => ! D.contains i)) t
      { bots := delSorted D t.bots, tops := delSorted D t.tops, lampams := npDelete D t.lampams,
        counts := npDelete D t.counts, objs := npDelete D t.objs, objsNo := npDelete D t.objsNo } := by
  obtain ⟨h1, h2, h3, h4, h5, h6⟩ := h
  refine ⟨?_, ?_, ?_, ?_, ?_, ?_⟩ <;>
  · simp only [delSorted_eq D hD, npDelete_eq, keepIdx_positions, h1, h2, h3, h4, h5, h6]

theorem length_filter_not_mem (n : Nat) (D : List Nat) (hD : D.Nodup) (hlt : ∀ i ∈ D, i < n) :
    ((List.range n).filter (fun i => ! D.contains i)).length = n - D.length := by
  have h1 : ((List.range n).filter (fun i => D.contains i)).Perm D := by
    rw [List.perm_ext_iff_of_nodup (List.nodup_range.filter _) hD]
    intro a
    simp only [List.mem_filter, List.mem_range, List.contains_iff_mem]
    exact ⟨fun h => h.2, fun h => ⟨hlt a h, h⟩⟩
  have h2 := List.length_eq_length_filter_add (l := List.range n) (fun i => D.contains i)
  rw [h1.length_eq, List.length_range] at h2
  omega

/-- C37: global pruning.  With objectives below the sentinel 6666, the nodes kept are the same in all
the tables, they are the allowed number (or all the nodes if there are fewer), in their order, and
no discarded node has a smaller objective than a kept one. -/
theorem C37_global_pruning (limit : Nat) (t : Tabs V) (n : Nat) (ht : Aligned t n)
    (hs : ∀ x ∈ t.objs, x < 6666) :
    ∃ kept : List Nat, Selects kept t (globalPrune limit t) ∧ kept.Sublist (List.range n) ∧
      kept.length = min limit n ∧
      ∀ i ∈ kept, ∀ j, j < n → j ∉ kept → t.objs.getD i 0 ≤ t.objs.getD j 0 := by
  obtain ⟨h1, h2, h3, h4, h5, h6⟩ := ht
  unfold globalPrune
  by_cases hl : limit < t.objs.length
  · rw [if_pos hl]
    dsimp only
    have hmark := fun j => markBest_eq limit t.objs j hl.le (fun x hx => (hs x hx).le)
    have hcnt : limit ≤ (t.objs.map (fun x => -x)).countP (fun x => decide (x ≠ -6666)) := by
      rw [List.countP_eq_length.2 (by
        intro x hx
        obtain ⟨y, hy, rfl⟩ := List.mem_map.1 hx
        have := hs y hy
        simp only [decide_eq_true_eq, ne_eq]
        intro h; linarith)]
      simp; omega
    obtain ⟨w1, w2, w3, w4⟩ := worstNodes_spec limit (t.objs.map (fun x => -x)) (by
        intro x hx
        obtain ⟨y, hy, rfl⟩ := List.mem_map.1 hx
        have := hs y hy
        linarith) hcnt
    generalize hB : worstNodes limit (t.objs.map (fun x => -x)) = B at *
    have hD : (List.range (markBest limit t.objs).length).filter
        (fun i => (markBest limit t.objs).getD i 0 != 6666) =
        (List.range n).filter (fun i => ! B.contains i) := by
      rw [(hmark 0).1, h5]
      apply List.filter_congr
      intro i hi
      rw [(hmark i).2, Bool.eq_iff_iff]
      simp only [bne_iff_ne, ne_eq, Bool.not_eq_true', Bool.eq_false_iff, List.contains_iff_mem]
      by_cases hb : i ∈ B
      · simp [hb]
      · simp only [hb, if_false, not_false_eq_true, iff_true]
        have := hs (t.objs.getD i 0) (by
          rw [List.getD_eq_getElem _ _ (by rw [h5]; exact List.mem_range.1 hi)]
          exact List.getElem_mem _)
        exact this.ne
    rw [hD]
    have hDn : ((List.range n).filter (fun i => ! B.contains i)).Nodup := List.nodup_range.filter _
    have hkept : (List.range n).filter (fun i => ! ((List.range n).filter
        (fun i => ! B.contains i)).contains i) = (List.range n).filter (fun i => B.contains i) := by
      apply List.filter_congr
      intro i hi
      rw [Bool.eq_iff_iff]
      simp only [Bool.not_eq_true', Bool.eq_false_iff, ne_eq, List.contains_iff_mem, List.mem_filter,
        hi, true_and, not_not]
    have hsel := selects_of_delete _ hDn t n ⟨h1, h2, h3, h4, h5, h6⟩
    rw [hkept] at hsel
    have hBlt : ∀ i ∈ B, i < n := fun i hi => by
      have := (w3 i hi).1; simpa [h5] using this
    refine ⟨_, hsel, List.filter_sublist, ?_, ?_⟩
    · have a1 := length_filter_not_mem n B w1 hBlt
      have a2 := List.length_eq_length_filter_add (l := List.range n) (fun i => B.contains i)
      rw [List.length_range] at a2
      have hB2 : B.length ≤ n := by rw [w2, ← h5]; exact hl.le
      rw [Nat.min_eq_left (by omega), ← w2]
      omega
    · intro i hi j hj hjn
      have hiB : i ∈ B := by simpa using (List.mem_filter.1 hi).2
      have hjB : j ∉ B := by
        intro h
        exact hjn (List.mem_filter.2 ⟨List.mem_range.2 hj, by simpa using h⟩)
      have := w4 i hiB j (by simp; omega) hjB
      rw [getD_map_neg, getD_map_neg] at this
      linarith
  · rw [if_neg hl]
    refine ⟨List.range n, ?_, List.Sublist.refl _, by rw [List.length_range]; omega, ?_⟩
    · have e : ∀ {α : Type} (l : List α), l.length = n → l = (List.range n).filterMap (fun i => l[i]?) := by
        intro α l hl
        have := keepIdx_positions (fun _ => true) l
        rw [keepIdx_all _ _ _ (by simp), hl] at this
        rw [this]
        congr 1
        · funext i; rw [← this]
        · simp
      exact ⟨e _ h1, e _ h2, e _ h3, e _ h4, e _ h5, e _ h6⟩
    · intro i _ j hj hjn
      exact absurd (List.mem_range.2 hj) hjn

/-- C37: local pruning of the children of a node, the last `nLocal` nodes of the tables.  With
objectives above -6666, the nodes kept are the same in all the tables, the earlier nodes are all
kept, of the children the allowed number (or all if there are fewer) is kept, and no discarded child
has a smaller objective than a kept one. -/
theorem C37_local_pruning (P : Problem V) (level : Nat) (last : Bool) (nLocal : Nat) (t : Tabs V) (n : Nat)
    (ht : Aligned t n) (hn : nLocal ≤ n) (hs : ∀ x ∈ t.objs, -6666 < x)
    (hlev : level ≠ P.indices.length - 1) :
    ∃ kept : List Nat, Selects kept t (localPrune P level last nLocal t) ∧ kept.Sublist (List.range n) ∧
      (∀ i, i < n - nLocal → i ∈ kept) ∧
      kept.length = n - nLocal + min nLocal (if last then P.localLimitFinal else P.localLimit) ∧
      ∀ i ∈ kept, n - nLocal ≤ i → ∀ j, n - nLocal ≤ j → j < n → j ∉ kept →
        t.objs.getD i 0 ≤ t.objs.getD j 0 := by
  unfold localPrune
  generalize (if last = true then P.localLimitFinal else P.localLimit) = limit
  dsimp only
  obtain ⟨h1, h2, h3, h4, h5, h6⟩ := ht
  by_cases hl : limit < nLocal
  · rw [if_pos ⟨hlev, hl⟩]
    have hlast : lastK t.objs nLocal = t.objs.drop (n - nLocal) := by
      rw [lastK, if_neg (by omega), h5]
    rw [hlast, h5]
    have hlen : (t.objs.drop (n - nLocal)).length = nLocal := by rw [List.length_drop, h5]; omega
    have hmem : ∀ x ∈ t.objs.drop (n - nLocal), -6666 < x := fun x hx => hs x (List.mem_of_mem_drop hx)
    obtain ⟨w1, w2, w3, w4⟩ := worstNodes_spec (nLocal - limit) (t.objs.drop (n - nLocal))
      (fun x hx => (hmem x hx).le) (by
        rw [List.countP_eq_length.2 (by
          intro x hx
          have := hmem x hx
          simp only [decide_eq_true_eq, ne_eq]
          intro h; linarith)]
        omega)
    have hget : ∀ i, (t.objs.drop (n - nLocal)).getD i 0 = t.objs.getD (n - nLocal + i) 0 := by
      intro i
      rw [List.getD_eq_getElem?_getD, List.getD_eq_getElem?_getD, List.getElem?_drop]
    generalize worstNodes (nLocal - limit) (t.objs.drop (n - nLocal)) = W at *
    have hDmem : ∀ j, j ∈ W.map (fun i => i + n - nLocal) ↔ n - nLocal ≤ j ∧ j - (n - nLocal) ∈ W := by
      intro j
      rw [List.mem_map]
      constructor
      · rintro ⟨i, hi, rfl⟩
        refine ⟨by omega, ?_⟩
        rw [show i + n - nLocal - (n - nLocal) = i by omega]; exact hi
      · rintro ⟨hj, hi⟩
        exact ⟨_, hi, by omega⟩
    have hDn : (W.map (fun i => i + n - nLocal)).Nodup := by
      rw [List.nodup_map_iff_inj_on w1]
      intro a _ b _ h; omega
    have hDlt : ∀ i ∈ W.map (fun i => i + n - nLocal), i < n := by
      intro i hi
      obtain ⟨a, b⟩ := (hDmem i).1 hi
      have := (w3 _ b).1
      omega
    refine ⟨_, selects_of_delete _ hDn t n ⟨h1, h2, h3, h4, h5, h6⟩, List.filter_sublist, ?_, ?_, ?_⟩
    · intro i hi
      rw [List.mem_filter]
      refine ⟨List.mem_range.2 (by omega), ?_⟩
      have : i ∉ W.map (fun i => i + n - nLocal) := fun h => by have := ((hDmem i).1 h).1; omega
      rw [Bool.not_eq_true', Bool.eq_false_iff, ne_eq, List.contains_iff_mem]
      exact this
    · rw [length_filter_not_mem n _ hDn hDlt, List.length_map, w2]
      omega
    · intro i hi hi2 j hj hjn hjk
      have hiW : i - (n - nLocal) ∉ W := by
        intro h
        have h2 := (List.mem_filter.1 hi).2
        rw [Bool.not_eq_true', Bool.eq_false_iff, ne_eq, List.contains_iff_mem] at h2
        exact h2 ((hDmem i).2 ⟨hi2, h⟩)
      have hjW : j - (n - nLocal) ∈ W := by
        by_contra h
        apply hjk
        rw [List.mem_filter]
        refine ⟨List.mem_range.2 hjn, ?_⟩
        rw [Bool.not_eq_true', Bool.eq_false_iff, ne_eq, List.contains_iff_mem]
        exact fun h2 => h ((hDmem j).1 h2).2
      have hin : i < n := by simpa using (List.mem_filter.1 hi).1
      have := w4 _ hjW (i - (n - nLocal)) (by omega) hiW
      rw [hget, hget] at this
      rw [show n - nLocal + (i - (n - nLocal)) = i by omega,
        show n - nLocal + (j - (n - nLocal)) = j by omega] at this
      exact this
  · rw [if_neg (fun h => hl h.2)]
    refine ⟨List.range n, ?_, List.Sublist.refl _, fun i hi => List.mem_range.2 (by omega), ?_, ?_⟩
    · have e : ∀ {α : Type} (l : List α), l.length = n → l = (List.range n).filterMap (fun i => l[i]?) := by
        intro α l hl
        have := keepIdx_positions (fun _ => true) l
        rw [keepIdx_all _ _ _ (by simp), hl] at this
        rw [this]
        congr 1
        · funext i; rw [← this]
        · simp
      exact ⟨e _ h1, e _ h2, e _ h3, e _ h4, e _ h5, e _ h6⟩
    · rw [List.length_range]; omega
    · intro i _ _ j _ hj hjn
      exact absurd (List.mem_range.2 hj) hjn

/-- C37, violation: at the ply of highest index (the last level for symmetric laminates) no local
pruning takes place, whatever the limit `local_node_limit_final`. -/
theorem C37_local_pruning_last_violation (P : Problem V) (last : Bool) (nLocal : Nat) (t : Tabs V) :
    localPrune P (P.indices.length - 1) last nLocal t = t := by
  unfold localPrune
  rw [if_neg (by simp)]

/-- C37, violation: with objectives above the sentinel, global pruning keeps one node only, although
more are allowed. -/
theorem C37_global_sentinel_violation :
    (globalPrune 2 (
      { bots := [[[0]], [[45]], [[90]]]
        tops := [[[]], [[]], [[]]]
        lampams := [[], [], []]
        counts := [[], [], []]
        objs := [7000, 8000, 9000]
        objsNo := [[], [], []] } : Tabs ℚ)).bots = [[[0]]] := by decide +kernel

example : (globalPrune 2 (
      { bots := [[[0]], [[45]], [[90]], [[-45]]]
        tops := [[[]], [[]], [[]], [[]]]
        lampams := [[1], [2], [3], [4]]
        counts := [[], [], [], []]
        objs := [4, 1, 3, 2]
        objsNo := [[], [], [], []] } : Tabs ℚ)).lampams = [[2], [4]] := by decide +kernel

end Bella
