import Verif.Props.Constraints
/-
Ply counts per fibre direction.
-/
namespace Bella

theorem cnt_set (n : List ℚ) (i j : Nat) (q : ℚ) (hi : i < n.length) :
    cnt (n.set i q) j = if i = j then q else cnt n j := by
  unfold cnt
  simp only [List.getD, List.getElem?_set]
  split
  · simp
  · rfl

theorem sum_set (n : List ℚ) (i : Nat) (hi : i < n.length) :
    (n.set i (cnt n i + 1)).sum = n.sum + 1 := by
  induction n generalizing i with
  | nil => simp at hi
  | cons x n ih =>
    cases i with
    | zero => simp [cnt]; ring
    | succ i =>
      have := ih i (by simpa using hi)
      simp only [List.set_cons_succ, List.sum_cons]
      have e : cnt (x :: n) (i + 1) = cnt n i := by simp [cnt]
      rw [e, this]; ring

/-- effect of the counting loop -/
theorem plyCountsLoop_spec (dict : List (Int × Nat)) (ss : Stack) :
    ∀ (n m : List ℚ), (∀ a i, dict.lookup a = some i → i < n.length) →
      plyCountsLoop dict ss n = .ok m →
      m.length = n.length ∧ m.sum = n.sum + ss.length ∧
      (∀ a ∈ ss, ∃ i, dict.lookup a = some i) ∧
      ∀ i, cnt m i = cnt n i + (ss.countP (fun a => decide (dict.lookup a = some i)) : ℚ) := by
  induction ss with
  | nil =>
    intro n m _ h
    simp only [plyCountsLoop, Except.ok.injEq] at h
    subst h
    simp
  | cons a ss ih =>
    intro n m hlt h
    unfold plyCountsLoop at h
    cases hl : dict.lookup a with
    | none => rw [hl] at h; cases h
    | some i =>
      rw [hl] at h
      have hi := hlt a i hl
      obtain ⟨h1, h2, h3, h4⟩ := ih _ m (by simpa using hlt) h
      refine ⟨by simpa using h1, ?_, ?_, ?_⟩
      · rw [h2, sum_set n i hi]; push_cast [List.length_cons]; ring
      · intro b hb
        rcases List.mem_cons.1 hb with rfl | hb
        · exact ⟨i, hl⟩
        · exact h3 b hb
      · intro j
        rw [h4 j, cnt_set n i j _ hi, List.countP_cons]
        simp only [hl, Option.some.injEq, decide_eq_true_eq]
        split
        · rename_i e; subst e; push_cast; ring
        · push_cast; ring

theorem plyCountsLoop_ok (dict : List (Int × Nat)) (ss : Stack) :
    ∀ n : List ℚ, (∀ a ∈ ss, ∃ i, dict.lookup a = some i) →
      ∃ m, plyCountsLoop dict ss n = .ok m := by
  induction ss with
  | nil => intro n _; exact ⟨n, rfl⟩
  | cons a ss ih =>
    intro n h
    obtain ⟨i, hi⟩ := h a (by simp)
    unfold plyCountsLoop
    rw [hi]
    exact ih _ (fun b hb => h b (by simp [hb]))

/-- ply counts of a laminate made of allowed angles -/
theorem plyCounts_spec (a : ConsArgs) (c : Cons) (hc : mkConstraints a = .ok c) (ss : Stack)
    (hss : ∀ x ∈ ss, x ∈ c.angles) :
    ∃ n, plyCounts c ss = .ok n ∧ n.length = c.angles.length ∧ n.sum = ss.length ∧
      ∀ i x, c.angles[i]? = some x → cnt n i = ss.count x ∧ n[i]? = some (ss.count x : ℚ) := by
  obtain ⟨_, _, _, hlen, hr, _⟩ := C14_angles a c hc
  have hd := C14_dict a c hc
  have hlt : ∀ x i, c.indAngles.lookup x = some i → i < (List.replicate c.nAngles (0 : ℚ)).length := by
    intro x i h
    rw [List.length_replicate, hlen]
    rcases (hd x i).1 h with h | ⟨_, h⟩
    · exact (List.getElem?_eq_some_iff.1 h).1
    · exact (List.getElem?_eq_some_iff.1 h).1
  obtain ⟨n, hn⟩ := plyCountsLoop_ok c.indAngles ss (List.replicate c.nAngles 0) (by
    intro x hx
    obtain ⟨i, hi⟩ := List.mem_iff_getElem?.1 (hss x hx)
    exact ⟨i, (hd x i).2 (Or.inl hi)⟩)
  obtain ⟨h1, h2, _, h4⟩ := plyCountsLoop_spec _ ss _ n hlt hn
  refine ⟨n, hn, by rw [h1, List.length_replicate, hlen], ?_, ?_⟩
  · rw [h2]; simp
  · intro i x hx
    have hcnt : cnt n i = ss.count x := by
      rw [h4 i]
      have e0 : cnt (List.replicate c.nAngles (0 : ℚ)) i = 0 := by
        unfold cnt
        simp only [List.getD, List.getElem?_replicate]
        split <;> rfl
      rw [e0, zero_add]
      congr 1
      unfold List.count
      apply List.countP_congr
      intro y hy
      simp only [decide_eq_true_eq, beq_iff_eq]
      have hy' := hr y (hss y hy)
      rw [hd y i, hx]
      simp only [Option.some.injEq]
      constructor
      · rintro (h | ⟨h, _⟩)
        · exact h.symm
        · omega
      · rintro rfl; exact Or.inl rfl
    refine ⟨hcnt, ?_⟩
    have hi : i < n.length := by
      rw [h1, List.length_replicate, hlen]
      exact (List.getElem?_eq_some_iff.1 hx).1
    rw [List.getElem?_eq_getElem hi]
    congr 1
    rw [← hcnt]
    simp [cnt, List.getD, hi]

end Bella
