import Verif.Proofs.SubsetNext
/-
C81: the subset sum functions.
-/
namespace Bella

open Spec

/-- C81: starting from the empty subset and rank -1, call number `k + 1` of `subset_next` returns the subset number `k` of the
lexicographic order with its rank, for all the `2 ^ n` subsets; the next call returns the empty subset and the rank -1. -/
theorem C81_subset_next (n : Nat) :
    (∀ k, k < 2 ^ n → (fun p : List Bool × Int => subsetNext p.1 p.2)^[k + 1] (List.replicate n false, -1) =
      (subsetOfRank n k, (k : Int))) ∧
    (fun p : List Bool × Int => subsetNext p.1 p.2)^[2 ^ n + 1] (List.replicate n false, -1) = (List.replicate n false, -1) := by
  have h : ∀ k, k < 2 ^ n → (fun p : List Bool × Int => subsetNext p.1 p.2)^[k + 1] (List.replicate n false, -1) =
      (subsetOfRank n k, (k : Int)) := by
    intro k
    induction k with
    | zero => intro _; rw [subsetOfRank_zero]; rfl
    | succ k ih =>
      intro hk
      rw [Function.iterate_succ_apply', ih (by omega)]
      simp only
      rw [subsetNext_rank hk]
      push_cast
      rfl
  refine ⟨h, ?_⟩
  have hp : 0 < 2 ^ n := Nat.pos_of_ne_zero (by simp)
  rw [Function.iterate_succ_apply']
  obtain ⟨m, hm⟩ : ∃ m, 2 ^ n = m + 1 := ⟨2 ^ n - 1, by omega⟩
  rw [hm, h m (by omega)]
  simp only
  rw [subsetNext_last hm.symm]

/-- C81: every subset of `n` positions is the subset of exactly one rank below `2 ^ n`, so the calls visit each one once. -/
theorem C81_ranks (n : Nat) (s : List Bool) (hs : s.length = n) : ∃! k, k < 2 ^ n ∧ subsetOfRank n k = s := by
  refine ⟨leVal s.reverse, ⟨by have := leVal_lt s.reverse; simpa [hs] using this, ?_⟩, ?_⟩
  · have hlt : leVal s.reverse < 2 ^ n := by have := leVal_lt s.reverse; simpa [hs] using this
    have : (subsetOfRank n (leVal s.reverse)).reverse = s.reverse := by
      apply leVal_inj
      · simp [subsetOfRank_length, hs]
      · rw [subsetOfRank_reverse, leVal_testBit _ _ hlt]
    simpa using congrArg List.reverse this
  · rintro k ⟨hk, rfl⟩
    rw [subsetOfRank_reverse, leVal_testBit _ _ hk]

/-- C81: `subset_sum_count` ends and returns the number of the subsets (taken by positions) with the target sum. -/
theorem C81_count (w : List Int) (t : Int) (fuel : Nat) (hf : 2 ^ w.length < fuel) :
    subsetSumCount fuel w t = some (w.sublists.countP (fun l => decide (l.sum = t))) := by
  have hp : 0 < 2 ^ w.length := Nat.pos_of_ne_zero (by simp)
  obtain ⟨f, rfl⟩ : ∃ f, fuel = f + 1 := ⟨fuel - 1, by omega⟩
  unfold subsetSumCount countLoop
  simp only [subsetNext, if_true]
  rw [if_neg (by omega), ← subsetOfRank_zero]
  have h := countLoop_rank (w := w) (t := t) (2 ^ w.length - 1) 0
    (if subsetTotal w (subsetOfRank w.length 0) = t then 0 + 1 else 0) f (by omega) (by omega)
  simp only [Nat.cast_zero] at h
  rw [h, (List.sublists_perm_sublists' w).countP_eq, ← chosen_ranks w, List.countP_map]
  congr 1
  obtain ⟨m, hm⟩ : ∃ m, 2 ^ w.length = m + 1 := ⟨2 ^ w.length - 1, by omega⟩
  rw [hm, Nat.add_sub_cancel, List.range_succ_eq_map, List.countP_cons, List.countP_map, Nat.add_comm]
  congr 1
  · apply List.countP_congr
    intro j _
    simp only [Function.comp, subsetTotal_chosen, decide_eq_true_eq, Nat.succ_eq_add_one]
    rw [Nat.zero_add, Nat.add_comm 1 j]
  · simp only [Function.comp, subsetTotal_chosen]
    by_cases h1 : (chosen (subsetOfRank w.length 0) w).sum = t <;> simp [h1]

/-- C81: `subset_sum_find` ends; the subset returned has the target sum if a subset has it, and is the empty subset
otherwise. -/
theorem C81_find (w : List Int) (t : Int) (fuel : Nat) (hf : 2 ^ w.length < fuel) :
    ∃ s, subsetSumFind fuel w t = some s ∧ s.length = w.length ∧
      ((∃ l : List Int, l.Sublist w ∧ l.sum = t) → (chosen s w).sum = t) ∧
      ((¬ ∃ l : List Int, l.Sublist w ∧ l.sum = t) → s = List.replicate w.length false) := by
  have hp : 0 < 2 ^ w.length := Nat.pos_of_ne_zero (by simp)
  obtain ⟨f, rfl⟩ : ∃ f, fuel = f + 1 := ⟨fuel - 1, by omega⟩
  have hmem : ∀ l : List Int, l.Sublist w ↔ ∃ k, k < 2 ^ w.length ∧ chosen (subsetOfRank w.length k) w = l := by
    intro l
    rw [← List.mem_sublists', ← chosen_ranks w]
    simp
  unfold subsetSumFind findLoop
  simp only [subsetNext, if_true]
  rw [if_neg (by omega), ← subsetOfRank_zero]
  by_cases h0 : subsetTotal w (subsetOfRank w.length 0) = t
  · rw [if_pos h0]
    refine ⟨_, rfl, subsetOfRank_length _ _, fun _ => by rw [← subsetTotal_chosen, h0], fun _ => rfl⟩
  · rw [if_neg h0]
    obtain ⟨s, h1, h2⟩ := findLoop_rank (w := w) (t := t) (2 ^ w.length - 1) 0 f (by omega) (by omega)
    simp only [Nat.cast_zero] at h1
    refine ⟨s, h1, ?_⟩
    rcases h2 with ⟨j, h3, h4, h5, h6⟩ | ⟨h3, h4⟩
    · refine ⟨by rw [h5, subsetOfRank_length], fun _ => by rw [← subsetTotal_chosen, h6], fun hn => ?_⟩
      exact absurd ⟨_, (hmem _).2 ⟨j, h4, rfl⟩, by rw [← subsetTotal_chosen, ← h5, h6]⟩ hn
    · refine ⟨by simp [h3], fun ⟨l, hl, hs⟩ => ?_, fun _ => by rw [h3, subsetOfRank_zero]⟩
      obtain ⟨k, hk, rfl⟩ := (hmem l).1 hl
      rw [← subsetTotal_chosen] at hs
      by_cases hk0 : k = 0
      · subst hk0; exact absurd hs h0
      · exact absurd hs (h4 k (by omega) hk)

/-- C81: for any values the calls of `subset_sum_next` end; the subsets returned are different from one another and have the
desired sum. -/
theorem C81_next_sound (s : Int) (v : List Int) (hv : v ≠ []) (u : List Int) (t : Int) :
    ∃ F out, (∀ fuel, F ≤ fuel → subsetSumAll s v fuel false u t = some (.ok out)) ∧ out.Nodup ∧
      ∀ x ∈ out, IsSolution v s x := by
  obtain ⟨F, hF⟩ := subsetSumAll_ends (s := s) hv u t
  refine ⟨F, _, hF, ?_, ?_⟩
  · unfold allSols
    split_ifs
    · exact subSols_nodup _ _ _
    · simp
    · simp
  · intro x hx
    unfold allSols at hx
    split_ifs at hx with h1 h2
    · obtain ⟨b, rfl, hl, hb, _, hd⟩ := subSols_sound _ _ _ _ hx
      exact ⟨hl, hb, by rw [chosen_dotSum _ _ hb]; linarith⟩
    · rw [List.mem_singleton] at hx
      subst hx h2
      exact ⟨by simp, isBits_zeros _, by rw [chosen_dotSum _ _ (isBits_zeros _), dotSum_zeros]⟩
    · simp at hx

/-- C81: for strictly increasing values that are not negative, and a desired sum other than zero or positive values, the calls of
`subset_sum_next` return every subset with the desired sum. -/
theorem C81_next_complete (s : Int) (v : List Int) (hv : v ≠ []) (u : List Int) (t : Int) (hp : v.Pairwise (· < ·))
    (h0 : ∀ x ∈ v, 0 ≤ x) (hs : s ≠ 0 ∨ ∀ x ∈ v, 0 < x) :
    ∃ F out, (∀ fuel, F ≤ fuel → subsetSumAll s v fuel false u t = some (.ok out)) ∧ out.Nodup ∧
      ∀ x, x ∈ out ↔ IsSolution v s x := by
  obtain ⟨F, out, h1, h2, h3⟩ := C81_next_sound s v hv u t
  refine ⟨F, out, h1, h2, fun x => ⟨h3 x, ?_⟩⟩
  rintro ⟨hl, hb, hsum⟩
  rw [chosen_dotSum _ _ hb] at hsum
  obtain ⟨F', hF'⟩ := subsetSumAll_ends (s := s) hv u t
  have he : out = allSols s v := by
    have := h1 (max F F') (le_max_left _ _)
    rw [hF' _ (le_max_right _ _)] at this
    simpa using this.symm
  rw [he]
  unfold allSols
  by_cases hpos : 0 < s
  · rw [if_pos hpos]
    have h4 : (1 : Int) ∈ x := by
      by_contra hcon
      rw [zeros_of_bits hb hcon, dotSum_zeros] at hsum
      omega
    exact subSols_complete v [] 0 x hp h0 hl hb h4 (by linarith)
  · rw [if_neg hpos]
    have h5 := dotSum_nonneg x v hb h0
    have h6 : s = 0 := by omega
    rw [if_pos h6, List.mem_singleton, ← hl]
    apply zeros_of_bits hb
    intro h4
    have h7 := hs.resolve_left (by simp [h6])
    have := dotSum_pos (x := 0) x v hl hb h4 h7 (le_refl _)
    omega

/-- C81: the description of `subset_sum_next` allows repeated values, but then subsets are missed: of the two subsets of [1, 1] with
sum 1 only one is returned, for every number of calls. -/
theorem C81_next_duplicates_violation : ∃ F out, (∀ fuel, F ≤ fuel → subsetSumAll 1 [1, 1] fuel false [] 0 = some (.ok out)) ∧
    IsSolution [1, 1] 1 [0, 1] ∧ [0, 1] ∉ out := by
  obtain ⟨F, hF⟩ := subsetSumAll_ends (s := 1) (v := [1, 1]) (by simp) [] 0
  exact ⟨F, _, hF, ⟨rfl, by decide, by decide⟩, by decide⟩

/-- C81: the table of `subset_sum_table` has an entry for every sum up to the target; the entry is not zero exactly for the positive
sums of subsets of the weights. -/
theorem C81_table (t : Nat) (w : List Nat) :
    (subsetSumTable t w).length = t + 1 ∧
      ∀ i, i ≤ t → ((subsetSumTable t w).getD i 0 ≠ 0 ↔ 0 < i ∧ ∃ l : List Nat, l.Sublist w ∧ l.sum = i) := by
  have h := subsetSumTable_inv t w
  refine ⟨h.len, fun i hi => ⟨fun h1 => ?_, ?_⟩⟩
  · obtain ⟨l, h2, h3⟩ := h.sound i h1
    refine ⟨?_, l.reverse, h3, by rw [List.sum_reverse, h2.sum]⟩
    by_contra hc
    rw [show i = 0 by omega] at h1
    exact h1 h.zero
  · rintro ⟨h1, l, h2, h3⟩
    subst h3
    exact h.complete l h2 h1 hi

/-- C81: if the target is the sum of a subset of the weights, `subset_sum_table_to_list` returns the weights of such a subset (the last
weight of the array first) and their number. -/
theorem C81_table_to_list (t : Nat) (w : List Nat) (ht : ∃ l : List Nat, l.Sublist w ∧ l.sum = t) :
    ∃ l : List Nat, subsetSumTableToList t (subsetSumTable t w) = some (.ok (l.length, l)) ∧ l.reverse.Sublist w ∧ l.sum = t := by
  have h := subsetSumTable_inv t w
  have hc : ∃ l, TableChain (subsetSumTable t w) t l ∧ l.reverse.Sublist w := by
    by_cases h0 : t = 0
    · subst h0
      exact ⟨[], .nil, by simp⟩
    · exact h.sound t (((C81_table t w).2 t (le_refl _)).2 ⟨by omega, ht⟩)
  obtain ⟨l, h1, h2⟩ := hc
  refine ⟨l, ?_, h2, h1.sum⟩
  unfold subsetSumTableToList
  rw [tableToListLoop_chain h1 t (le_refl _)]

/-- C81: the description of `subset_sum_table_to_list` promises an empty list when there is no solution, but the call never ends:
whenever the target is not the sum of a subset of the weights. -/
theorem C81_no_solution_violation (t : Nat) (w : List Nat) (ht : ¬ ∃ l : List Nat, l.Sublist w ∧ l.sum = t) :
    subsetSumTableToList t (subsetSumTable t w) = none := by
  have h0 : t ≠ 0 := fun h => ht ⟨[], by simp, by simp [h]⟩
  have h1 : (subsetSumTable t w).getD t 0 = 0 := by
    by_contra hc
    exact ht (((C81_table t w).2 t (le_refl _)).1 hc).2
  have hl : t < (subsetSumTable t w).length := by rw [(C81_table t w).1]; omega
  rw [List.getD_eq_getElem _ _ hl] at h1
  obtain ⟨k, rfl⟩ : ∃ k, t = k + 1 := ⟨t - 1, by omega⟩
  unfold subsetSumTableToList tableToListLoop
  rw [if_pos (by omega), pyGet_ok hl, h1]
  rfl

/-- Concrete cases: the examples of the comments of the code. -/
example : subsetSumTableToList 22 (subsetSumTable 22 [1, 2, 4, 8, 16, 32]) = some (.ok (3, [16, 4, 2])) := by decide +kernel
example : subsetSumCount 40 [1, 2, 3, 5, 7] 9 = some 2 := by decide +kernel
example : subsetSumAll 9 [1, 2, 3, 5, 7] 60 false [] 0 = some (.ok [[1, 0, 1, 1, 0], [0, 1, 0, 0, 1]]) := by decide +kernel
example : [(1 : Int), 2, 3, 5, 7].Pairwise (· < ·) ∧ IsSolution [1, 2, 3, 5, 7] 9 [1, 0, 1, 1, 0] :=
  ⟨by decide, rfl, by decide, by decide⟩
example : subsetSumFind 40 [1, 2, 3, 5, 7] 9 = some [false, true, false, false, true] := by decide +kernel
example : subsetOfRank 5 30 = [true, true, true, true, false] := by decide +kernel

end Bella
