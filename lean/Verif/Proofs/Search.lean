import Verif.Model.Search
import Verif.Proofs.Monad
import Mathlib.Data.List.Count
/-
Lemmas on `np.argmin`, deletions in tables and the selection of nodes.
-/
namespace Bella

theorem argMin_spec (l : List ℚ) (h : l ≠ []) :
    argMin l < l.length ∧ (∀ x ∈ l, l.getD (argMin l) 0 ≤ x) ∧
      ∀ j, j < argMin l → l.getD (argMin l) 0 < l.getD j 0 := by
  induction l with
  | nil => exact absurd rfl h
  | cons x t ih =>
    cases t with
    | nil => simp [argMin]
    | cons y t =>
      obtain ⟨h1, h2, h3⟩ := ih (by simp)
      rw [argMin]
      by_cases hx : x ≤ (y :: t).getD (argMin (y :: t)) 0
      · rw [if_pos hx]
        refine ⟨by simp, ?_, by simp⟩
        intro z hz
        rw [List.getD_cons_zero]
        rcases List.mem_cons.1 hz with rfl | hz
        · exact le_refl _
        · exact hx.trans (h2 z hz)
      · rw [if_neg hx]
        refine ⟨by simp only [List.length_cons] at *; omega, ?_, ?_⟩
        · intro z hz
          rw [List.getD_cons_succ]
          rcases List.mem_cons.1 hz with rfl | hz
          · exact (not_le.1 hx).le
          · exact h2 z hz
        · intro j hj
          rw [List.getD_cons_succ]
          cases j with
          | zero => rw [List.getD_cons_zero]; exact not_le.1 hx
          | succ j => rw [List.getD_cons_succ]; exact h3 j (by omega)

theorem getD_map_neg (l : List ℚ) (j : Nat) : (l.map (fun x => -x)).getD j 0 = -(l.getD j 0) := by
  rw [List.getD_eq_getElem?_getD, List.getD_eq_getElem?_getD, List.getElem?_map]
  cases l[j]? <;> simp

theorem argMax_spec (l : List ℚ) (h : l ≠ []) :
    argMax l < l.length ∧ ∀ x ∈ l, x ≤ l.getD (argMax l) 0 := by
  obtain ⟨h1, h2, _⟩ := argMin_spec (l.map (fun x => -x)) (by simpa using h)
  unfold argMax
  refine ⟨by simpa using h1, fun x hx => ?_⟩
  have := h2 (-x) (List.mem_map.2 ⟨x, hx, rfl⟩)
  rw [getD_map_neg] at this
  linarith

theorem getD_set (l : List ℚ) (i j : Nat) (v : ℚ) (hi : i < l.length) :
    (l.set i v).getD j 0 = if j = i then v else l.getD j 0 := by
  rw [List.getD_eq_getElem?_getD, List.getD_eq_getElem?_getD, List.getElem?_set]
  by_cases h : i = j
  · subst h; simp [hi]
  · rw [if_neg h, if_neg (fun h' => h h'.symm)]

/-- the sentinel is below all the other values: the search for the worst nodes never returns an entry twice -/
theorem worstNodes_spec (k : Nat) (l : List ℚ) (hs : ∀ x ∈ l, -6666 ≤ x)
    (hk : k ≤ l.countP (fun x => decide (x ≠ -6666))) :
    (worstNodes k l).Nodup ∧ (worstNodes k l).length = k ∧
    (∀ i ∈ worstNodes k l, i < l.length ∧ l.getD i 0 ≠ -6666) ∧
    (∀ i ∈ worstNodes k l, ∀ j, j < l.length → j ∉ worstNodes k l → l.getD j 0 ≤ l.getD i 0) := by
  induction k generalizing l with
  | zero => simp [worstNodes]
  | succ k ih =>
    have hpos : 0 < l.countP (fun x => decide (x ≠ -6666)) := by omega
    rw [List.countP_pos_iff] at hpos
    obtain ⟨z, hz, hz2⟩ := hpos
    have hne : l ≠ [] := List.ne_nil_of_mem hz
    obtain ⟨m1, m2⟩ := argMax_spec l hne
    have hmax : l.getD (argMax l) 0 ≠ -6666 := by
      have h1 := m2 z hz
      have h2 := hs z hz
      simp only [ne_eq, decide_eq_true_eq] at hz2
      intro h
      apply hz2
      rw [h] at h1
      linarith
    have hcount : l.countP (fun x => decide (x ≠ -6666)) =
        (l.set (argMax l) (-6666)).countP (fun x => decide (x ≠ -6666)) + 1 := by
      rw [List.countP_set m1]
      have e : l[argMax l] ≠ -6666 := by
        rw [List.getD_eq_getElem _ _ m1] at hmax; exact hmax
      rw [if_pos (by simpa using e)]
      simp only [ne_eq, not_true_eq_false, decide_false, Bool.false_eq_true, if_false, add_zero]
      have : 0 < l.countP (fun x => decide (x ≠ -6666)) := List.countP_pos_iff.2 ⟨z, hz, hz2⟩
      simp only [ne_eq] at this
      omega
    obtain ⟨i1, i2, i3, i4⟩ := ih (l.set (argMax l) (-6666))
      (by
        intro x hx
        rcases List.mem_or_eq_of_mem_set hx with h | h
        · exact hs x h
        · rw [h])
      (by omega)
    have i3' : ∀ i ∈ worstNodes k (l.set (argMax l) (-6666)), i < l.length ∧ i ≠ argMax l ∧
        l.getD i 0 ≠ -6666 ∧ (l.set (argMax l) (-6666)).getD i 0 = l.getD i 0 := by
      intro i hi
      obtain ⟨a1, a2⟩ := i3 i hi
      rw [List.length_set] at a1
      rw [getD_set _ _ _ _ m1] at a2 ⊢
      by_cases he : i = argMax l
      · rw [if_pos he] at a2; exact absurd rfl a2
      · rw [if_neg he] at a2 ⊢; exact ⟨a1, he, a2, rfl⟩
    rw [worstNodes]
    refine ⟨List.nodup_cons.2 ⟨fun h => (i3' _ h).2.1 rfl, i1⟩, by simp [i2], ?_, ?_⟩
    · intro i hi
      rcases List.mem_cons.1 hi with rfl | hi
      · exact ⟨m1, hmax⟩
      · exact ⟨(i3' i hi).1, (i3' i hi).2.2.1⟩
    · intro i hi j hj hjn
      rw [List.mem_cons, not_or] at hjn
      rcases List.mem_cons.1 hi with rfl | hi
      · apply m2
        rw [List.getD_eq_getElem _ _ hj]; exact List.getElem_mem _
      · have := i4 i hi j (by simpa using hj) hjn.2
        rw [(i3' i hi).2.2.2, getD_set _ _ _ _ m1, if_neg hjn.1] at this
        exact this

theorem map_neg_neg (l : List ℚ) : (l.map (fun x => -x)).map (fun x => -x) = l := by
  rw [List.map_map]
  conv_rhs => rw [← List.map_id l]
  apply List.map_congr_left
  intro a _
  simp

/-- `markBest` overwrites the positions of the best nodes, the worst nodes of the opposite values. -/
theorem markBest_eq (k : Nat) (l : List ℚ) (j : Nat) (hk : k ≤ l.length) (hs : ∀ x ∈ l, x ≤ 6666) :
    (markBest k l).length = l.length ∧
    (markBest k l).getD j 0 =
      if j ∈ worstNodes k (l.map (fun x => -x)) then 6666 else l.getD j 0 := by
  induction k generalizing l with
  | zero => simp [markBest, worstNodes]
  | succ k ih =>
    have hne : l ≠ [] := by rintro rfl; simp at hk
    obtain ⟨m1, _, _⟩ := argMin_spec l hne
    have e1 : argMax (l.map (fun x => -x)) = argMin l := by
      unfold argMax; rw [map_neg_neg]
    have e2 : (l.map (fun x => -x)).set (argMin l) (-6666) = (l.set (argMin l) 6666).map (fun x => -x) := by
      rw [List.map_set]
    obtain ⟨h1, h2⟩ := ih (l.set (argMin l) 6666) (by simp; omega) (by
      intro x hx
      rcases List.mem_or_eq_of_mem_set hx with h | h
      · exact hs x h
      · rw [h])
    rw [markBest, worstNodes, e1, e2]
    refine ⟨by rw [h1]; simp, ?_⟩
    rw [h2, getD_set _ _ _ _ m1]
    by_cases hj : j = argMin l
    · simp [hj]
    · simp [hj]

/-! ### deletions -/

/-- entries of a table at the positions (counted from `k`) satisfying `p` -/
def keepIdx {α : Type} (p : Nat → Bool) (k : Nat) (l : List α) : List α :=
  ((l.zipIdx k).filter (fun q => p q.2)).map Prod.fst

theorem npDelete_eq {α : Type} (D : List Nat) (l : List α) :
    npDelete D l = keepIdx (fun i => ! D.contains i) 0 l := rfl

theorem keepIdx_nil {α : Type} (p : Nat → Bool) (k : Nat) : keepIdx p k ([] : List α) = [] := rfl

theorem keepIdx_cons {α : Type} (p : Nat → Bool) (k : Nat) (x : α) (l : List α) :
    keepIdx p k (x :: l) = if p k then x :: keepIdx p (k + 1) l else keepIdx p (k + 1) l := by
  unfold keepIdx
  rw [List.zipIdx_cons, List.filter_cons]
  dsimp only
  split <;> simp

theorem keepIdx_append {α : Type} (p : Nat → Bool) (k : Nat) (l m : List α) :
    keepIdx p k (l ++ m) = keepIdx p k l ++ keepIdx p (k + l.length) m := by
  unfold keepIdx
  rw [List.zipIdx_append, List.filter_append, List.map_append]

theorem keepIdx_congr {α : Type} (p q : Nat → Bool) (k : Nat) (l : List α)
    (h : ∀ i, k ≤ i → i < k + l.length → p i = q i) : keepIdx p k l = keepIdx q k l := by
  induction l generalizing k with
  | nil => rfl
  | cons x l ih =>
    rw [keepIdx_cons, keepIdx_cons, h k (le_refl _) (by simp)]
    rw [ih (k + 1) (fun i h1 h2 => h i (by omega) (by simp; omega))]

theorem keepIdx_all {α : Type} (p : Nat → Bool) (k : Nat) (l : List α)
    (h : ∀ i, k ≤ i → i < k + l.length → p i = true) : keepIdx p k l = l := by
  induction l generalizing k with
  | nil => rfl
  | cons x l ih =>
    rw [keepIdx_cons, h k (le_refl _) (by simp), if_pos rfl]
    rw [ih (k + 1) (fun i h1 h2 => h i (by omega) (by simp; omega))]

theorem keepIdx_shift {α : Type} (p : Nat → Bool) (k m : Nat) (l : List α) :
    keepIdx p (k + m) l = keepIdx (fun i => p (i + m)) k l := by
  induction l generalizing k with
  | nil => rfl
  | cons x l ih =>
    rw [keepIdx_cons, keepIdx_cons, ← ih (k + 1), show k + m + 1 = k + 1 + m by omega]

theorem keepIdx_map {α β : Type} (p : Nat → Bool) (k : Nat) (f : α → β) (l : List α) :
    keepIdx p k (l.map f) = (keepIdx p k l).map f := by
  induction l generalizing k with
  | nil => rfl
  | cons x l ih =>
    rw [List.map_cons, keepIdx_cons, keepIdx_cons, ih]
    split <;> simp

theorem keepIdx_sublist {α : Type} (p : Nat → Bool) (k : Nat) (l : List α) :
    (keepIdx p k l).Sublist l := by
  induction l generalizing k with
  | nil => exact List.Sublist.slnil
  | cons x l ih =>
    rw [keepIdx_cons]
    split
    · exact (ih _).cons_cons x
    · exact (ih _).cons x

/-- entries of a table at the positions of a list -/
theorem keepIdx_positions {α : Type} (p : Nat → Bool) (l : List α) :
    keepIdx p 0 l = ((List.range l.length).filter p).filterMap (fun i => l[i]?) := by
  have gen : ∀ (k : Nat) (l : List α), keepIdx p k l =
      ((List.range' k l.length).filter p).filterMap (fun i => l[i - k]?) := by
    intro k l
    induction l generalizing k with
    | nil => rfl
    | cons x l ih =>
      rw [keepIdx_cons, ih (k + 1), List.length_cons, List.range'_succ, List.filter_cons]
      have e : ((List.range' (k + 1) l.length).filter p).filterMap (fun i => (x :: l)[i - k]?) =
          ((List.range' (k + 1) l.length).filter p).filterMap (fun i => l[i - (k + 1)]?) := by
        apply List.filterMap_congr
        intro i hi
        have := (List.mem_filter.1 hi).1
        rw [List.mem_range'_1] at this
        rw [show i - k = (i - (k + 1)) + 1 by omega, List.getElem?_cons_succ]
      split
      · rw [List.filterMap_cons]
        simp [e]
      · rw [e]
  rw [gen 0 l, List.range_eq_range']
  simp

theorem keepIdx_eraseIdx {α : Type} (p : Nat → Bool) (i : Nat) (l : List α)
    (hp : ∀ j, i ≤ j → p j = true) :
    keepIdx (fun j => p j && j != i) 0 l = keepIdx p 0 (l.eraseIdx i) := by
  by_cases hi : i < l.length
  · have e : l = l.take i ++ (l[i] :: l.drop (i + 1)) := by
      rw [← List.drop_eq_getElem_cons hi, List.take_append_drop]
    have hl : (l.take i).length = i := by simp; omega
    rw [List.eraseIdx_eq_take_drop_succ]
    conv_lhs => rw [e]
    rw [keepIdx_append, keepIdx_append, hl, Nat.zero_add, keepIdx_cons]
    rw [if_neg (by simp)]
    congr 1
    · apply keepIdx_congr
      intro j _ h2
      have : j ≠ i := by omega
      simp [this]
    · rw [keepIdx_all p _ _ (fun j h1 _ => hp j (by omega)), keepIdx_all]
      intro j h1 _
      have : j ≠ i := by omega
      simp [this, hp j (by omega)]
  · rw [List.eraseIdx_of_length_le (by omega)]
    apply keepIdx_congr
    intro j _ h2
    have : j ≠ i := by omega
    simp [this]

/-- deleting positions from the largest to the smallest deletes the set of positions -/
theorem delSorted_eq {α : Type} (D : List Nat) (hD : D.Nodup) (l : List α) :
    delSorted D l = npDelete D l := by
  have gen : ∀ (S : List Nat), S.Pairwise (fun a b => b < a) → ∀ l : List α,
      S.foldl (fun t i => t.eraseIdx i) l = keepIdx (fun i => ! S.contains i) 0 l := by
    intro S
    induction S with
    | nil => intro _ l; rw [List.foldl_nil, keepIdx_all]; simp
    | cons i S ih =>
      intro hS l
      rw [List.pairwise_cons] at hS
      rw [List.foldl_cons, ih hS.2, ← keepIdx_eraseIdx]
      · apply keepIdx_congr
        intro j _ _
        rw [Bool.eq_iff_iff]
        simp
        tauto
      · intro j hj
        have : j ∉ S := fun h => by have := hS.1 j h; omega
        simp [this]
  have hperm := List.perm_insertionSort (fun a b : Nat => b ≤ a) D
  have hsorted : (D.insertionSort (fun a b => b ≤ a)).Pairwise (fun a b => b < a) := by
    have h1 := List.pairwise_insertionSort (fun a b : Nat => b ≤ a) D
    have h2 : (D.insertionSort (fun a b => b ≤ a)).Nodup := hperm.nodup_iff.2 hD
    exact (h1.and h2).imp (fun h => by omega)
  rw [delSorted, gen _ hsorted, npDelete_eq]
  apply keepIdx_congr
  intro j _ _
  rw [Bool.eq_iff_iff]
  simp only [Bool.not_eq_true', Bool.eq_false_iff, ne_eq, List.contains_iff_mem, hperm.mem_iff]

end Bella
