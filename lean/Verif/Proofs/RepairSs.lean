import Verif.Model.RepairSs
import Verif.Props.Repair10
/-
The outer plies which the repair for balance and the 10% rule keeps.
-/
namespace Bella

/-- The loop stops only when about half of the room left by the minimum counts is used. -/
theorem queueLoop_kept (ipo : Bool) : ∀ (V q : List Int) (m : Int) (k0 k : Nat), 0 ≤ m →
    (queueLoop ipo V q m k0).2.2 = some k → k0 ≤ k ∧
      (V.length : Int) < (q.length : Int) + m + 2 * ((k : Int) - k0) + 2 := by
  intro V
  induction V with
  | nil => intro q m k0 k _ h; simp [queueLoop] at h
  | cons a rest ih =>
    intro q m k0 k hm h
    have hq : (queueStep ipo a q).length ≤ q.length + 1 := by
      unfold queueStep
      split_ifs
      · rw [List.length_erase]; split_ifs <;> omega
      · simp
      · omega
    have hm' : 0 ≤ missingStep ipo a q m ∧ missingStep ipo a q m ≤ m := by
      unfold missingStep
      split_ifs <;> omega
    simp only [queueLoop] at h
    split_ifs at h with h1
    · simp only [Option.some.injEq] at h
      rw [List.length_cons]
      push_cast
      omega
    · obtain ⟨g1, g2⟩ := ih _ _ _ _ hm'.1 h
      rw [List.length_cons]
      push_cast at *
      omega

theorem interleave_even {α : Type} : ∀ (A B : List α) (i : Nat), i < A.length → i ≤ B.length →
    (interleave A B)[2 * i]? = A[i]? := by
  intro A B
  induction A, B using interleave.induct with
  | case1 b => intro i h; simp at h
  | case2 x a =>
    intro i _ h
    have : i = 0 := by simpa using h
    subst this
    simp [interleave]
  | case3 x a y b ih =>
    intro i h1 h2
    cases i with
    | zero => simp [interleave]
    | succ i =>
      have := ih i (by simpa using h1) (by simpa using h2)
      simp only [interleave]
      rw [(by omega : 2 * (i + 1) = 2 * i + 1 + 1)]
      simpa using this

theorem interleave_odd {α : Type} : ∀ (A B : List α) (i : Nat), i < A.length → i < B.length →
    (interleave A B)[2 * i + 1]? = B[i]? := by
  intro A B
  induction A, B using interleave.induct with
  | case1 b => intro i h; simp at h
  | case2 x a => intro i _ h; simp at h
  | case3 x a y b ih =>
    intro i h1 h2
    cases i with
    | zero => simp [interleave]
    | succ i =>
      have := ih i (by simpa using h1) (by simpa using h2)
      simp only [interleave]
      rw [(by omega : 2 * (i + 1) + 1 = 2 * i + 1 + 1 + 1)]
      simpa using this

/-- The plies at both ends come first. -/
theorem indPlies_outer (sym : Bool) (n i : Nat) (h : i < n / 2) :
    (∃ j, j < (if sym then i + 1 else 2 * (i + 1)) ∧ (indPlies sym n)[j]? = some i) ∧
    (sym = false → ∃ j, j < 2 * (i + 1) ∧ (indPlies sym n)[j]? = some (n - 1 - i)) := by
  unfold indPlies
  cases sym
  · simp only [Bool.false_eq_true, if_false, forall_const]
    refine ⟨⟨2 * i + 1, by omega, ?_⟩, ⟨2 * i, by omega, ?_⟩⟩
    · rw [interleave_odd _ _ _ (by simp; omega) (by simp; omega)]
      rw [List.getElem?_take, if_pos h, List.getElem?_range (by omega)]
    · rw [interleave_even _ _ _ (by simp; omega) (by simp; omega)]
      rw [List.getElem?_reverse (by simp; omega), List.getElem?_drop, List.length_drop, List.length_range,
        List.getElem?_range (by omega)]
      congr 1
      omega
  · simp only [if_true]
    refine ⟨⟨i, by omega, ?_⟩, by simp⟩
    rw [List.getElem?_range h]

theorem not_mem_drop_of_nodup {α : Type} {l : List α} (h : l.Nodup) {j k : Nat} {x : α} (hj : j < k)
    (hx : l[j]? = some x) : x ∉ l.drop k := by
  intro hm
  obtain ⟨i, hi, e⟩ := List.getElem_of_mem hm
  rw [List.getElem_drop] at e
  obtain ⟨hj', e'⟩ := List.getElem?_eq_some_iff.mp hx
  have : k + i = j := (List.Nodup.getElem_inj_iff h).mp (by rw [e, e'])
  omega

/-- With enough room the first step keeps the plies at both ends. -/
theorem repair10Bal2_outer (c : Cons) (mini : Mini10) (ss : Stack) (K : Nat)
    (hm : 0 ≤ initMissing c mini) (hno : (666 : Int) ∉ ss) (hK : K ≤ ss.length / 2)
    (hroom : ((initQueue c mini).length : Int) + initMissing c mini + (if c.sym then 2 else 4) * (K : Int) ≤
      Spec.designPlies c.sym ss.length) :
    ∀ i, i < K → nth (repair10Bal2 c mini ss).1 i ≠ 666 ∧
      nth (repair10Bal2 c mini ss).1 (ss.length - 1 - i) ≠ 666 := by
  intro i hi
  have hnth : ∀ j, j < ss.length → nth ss j ≠ 666 := by
    intro j hj h
    rw [nth_eq_getElem _ _ hj] at h
    exact hno (h ▸ List.getElem_mem hj)
  have hl := fixMiddle_length c.sym ss
  have hfix : ∀ j, j < ss.length → nth (fixMiddle c.sym ss) j ≠ 666 := by
    intro j hj h
    rw [nth_eq_getElem _ _ (by omega)] at h
    rcases fixMiddle_mem c.sym ss 666 (h ▸ List.getElem_mem _) with h | h
    · exact hno h
    · exact absurd h (by decide)
  unfold repair10Bal2
  split_ifs with h0
  · exact ⟨hnth _ (by omega), hnth _ (by omega)⟩
  · dsimp only
    cases hr : (queueLoop c.ipo ((indPlies c.sym (fixMiddle c.sym ss).length).map (nth (fixMiddle c.sym ss)))
      (initQueue c mini) (initMissing c mini) 0).2.2 with
    | none => exact ⟨hfix _ (by omega), hfix _ (by omega)⟩
    | some k =>
      obtain ⟨_, hk⟩ := queueLoop_kept _ _ _ _ _ _ hm hr
      rw [List.length_map, indPlies_length, hl] at hk
      have hkK : (if c.sym then K else 2 * K) ≤ k := by
        split_ifs at hroom ⊢ <;> omega
      dsimp only
      have hlt : ∀ j ∈ (indPlies c.sym (fixMiddle c.sym ss).length).drop k, j < (fixMiddle c.sym ss).length :=
        fun j hj => indPlies_lt c.sym _ j (List.mem_of_mem_drop hj)
      have hnd := indPlies_nodup c.sym (fixMiddle c.sym ss).length
      obtain ⟨⟨j, hj, e⟩, h2⟩ := indPlies_outer c.sym (fixMiddle c.sym ss).length i (by omega)
      have a1 : i ∉ (indPlies c.sym (fixMiddle c.sym ss).length).drop k := by
        refine not_mem_drop_of_nodup hnd (lt_of_lt_of_le hj (le_trans ?_ hkK)) e
        split_ifs <;> omega
      rw [clearPlies_nth _ _ _ _ (by omega) hlt, clearPlies_nth _ _ _ _ (by omega) hlt, hl]
      rw [hl] at a1 h2 hnd
      cases hsy : c.sym with
      | true =>
        rw [hsy] at a1
        have a2 : ss.length - 1 - i ∉ (indPlies true ss.length).drop k := by
          intro h
          have := List.mem_of_mem_drop h
          unfold indPlies at this
          rw [if_pos rfl, List.mem_range] at this
          omega
        rw [hsy] at hfix
        rw [if_neg (by rintro (h | h); exact a1 h; exact a2 h.2),
          if_neg (by
            rintro (h | h)
            · exact a2 h
            · rw [(by omega : ss.length - 1 - (ss.length - 1 - i) = i)] at h
              exact a1 h.2)]
        exact ⟨hfix _ (by omega), hfix _ (by omega)⟩
      | false =>
        rw [hsy] at a1 h2 hkK hnd hfix
        simp only [Bool.false_eq_true, if_false] at hkK
        obtain ⟨j2, hj2, e2⟩ := h2 rfl
        have a2 : ss.length - 1 - i ∉ (indPlies false ss.length).drop k :=
          not_mem_drop_of_nodup hnd (lt_of_lt_of_le hj2 (le_trans (by omega) hkK)) e2
        rw [if_neg (by rintro (h | h); exact a1 h; exact absurd h.1 (by decide)),
          if_neg (by rintro (h | h); exact a2 h; exact absurd h.1 (by decide))]
        exact ⟨hfix _ (by omega), hfix _ (by omega)⟩

end Bella
