import Verif.Proofs.RepairDisoContig
/-
Lemmas on laminates covered by overlapping parts, and on the tests of the repair for the
disorientation and contiguity rules.
-/
namespace Bella

theorem nth_mid (A X B : Stack) (j : Nat) (hj : j < X.length) : nth (A ++ X ++ B) (A.length + j) = nth X j := by
  rw [nth_eq_getElem _ _ (by simp; omega), nth_eq_getElem _ _ hj,
    List.getElem_append_left (by simp; omega), List.getElem_append_right (by omega)]
  simp

theorem nth_left (A B : Stack) (j : Nat) (hj : j < A.length) : nth (A ++ B) j = nth A j := by
  have := nth_mid [] A B j hj
  simpa using this

theorem nth_right (A B : Stack) (j : Nat) (hj : j < B.length) : nth (A ++ B) (A.length + j) = nth B j := by
  have := nth_mid A B [] j hj
  simpa using this

/-- A laminate is fine if each of its windows lies in a part that is fine. -/
theorem contigOK_of_cover {n : Nat} {L : Stack}
    (h : ∀ (i : Nat), i + n < L.length → ∃ A X B, L = A ++ X ++ B ∧ A.length ≤ i ∧
      i + n < A.length + X.length ∧ Spec.ContigOK n X) : Spec.ContigOK n L := by
  rw [contigOK_iff]
  intro i hi
  obtain ⟨A, X, B, rfl, h1, h2, h3⟩ := h i (by omega)
  rw [contigOK_iff] at h3
  obtain ⟨j, hj, hne⟩ := h3 (i - A.length) (by omega)
  refine ⟨j, hj, ?_⟩
  have e1 : i + j = A.length + (i - A.length + j) := by omega
  have e2 : nth (A ++ X ++ B) i = nth X (i - A.length) := by
    have := nth_mid A X B (i - A.length) (by omega)
    rwa [show A.length + (i - A.length) = i by omega] at this
  rw [e1, nth_mid A X B _ (by omega), e2]
  exact hne

theorem contigOK_overlap {n : Nat} (A X B : Stack) (h1 : Spec.ContigOK n (A ++ X))
    (h2 : Spec.ContigOK n (X ++ B)) (hX : A = [] ∨ n ≤ X.length) : Spec.ContigOK n (A ++ X ++ B) := by
  rcases hX with rfl | hX
  · simpa using h2
  apply contigOK_of_cover
  intro i hi
  by_cases h : i + n < A.length + X.length
  · exact ⟨[], A ++ X, B, by simp, by simp, by simpa using h, h1⟩
  · refine ⟨A, X ++ B, [], by simp, by omega, ?_, h2⟩
    simp only [List.length_append] at hi ⊢
    omega

theorem contigOK_mirror {n : Nat} (A X G M : Stack) (hM : M.reverse = M)
    (h1 : Spec.ContigOK n (A ++ X)) (h2 : Spec.ContigOK n (X ++ G ++ M ++ G.reverse))
    (hX : A = [] ∨ n ≤ X.length) (hG : n ≤ 2 * G.length + M.length) :
    Spec.ContigOK n ((A ++ X ++ G) ++ M ++ (A ++ X ++ G).reverse) := by
  have h3 : Spec.ContigOK n ((A ++ X) ++ (G ++ M ++ G.reverse)) := by
    have := contigOK_overlap A X (G ++ M ++ G.reverse) h1 (by simpa using h2) hX
    simpa using this
  have h4 : Spec.ContigOK n ((G ++ M ++ G.reverse) ++ (A ++ X).reverse) := by
    have := contigOK_reverse h3
    simpa [hM] using this
  have := contigOK_overlap (A ++ X) (G ++ M ++ G.reverse) (A ++ X).reverse h3 h4
    (Or.inr (by simp; omega))
  simpa using this

/-! ### disorientation -/

theorem pairsWithin_of_cover {d : Int} {L : Stack} {lo hi : Nat}
    (h : ∀ (i : Nat), lo ≤ i → i < hi → i + 1 < L.length → ∃ A X B, L = A ++ X ++ B ∧ A.length ≤ i ∧
      i + 1 < A.length + X.length ∧
      Spec.WithinAngle d (nth X (i - A.length)) (nth X (i - A.length + 1))) :
    Spec.PairsWithin d L lo hi := by
  rw [pairsWithin_iff_nth]
  intro i h1 h2 h3
  obtain ⟨A, X, B, rfl, h4, h5, h6⟩ := h i h1 h2 (by omega)
  have e := nth_mid A X B (i - A.length) (by omega)
  have e' := nth_mid A X B (i - A.length + 1) (by omega)
  rw [show A.length + (i - A.length) = i by omega] at e
  rw [show A.length + (i - A.length + 1) = i + 1 by omega] at e'
  rw [e, e']
  exact h6

theorem disoOK_nth {d : Int} {X : Stack} (h : Spec.DisoOK d X) (i : Nat) (hi : i + 1 < X.length) :
    Spec.WithinAngle d (nth X i) (nth X (i + 1)) := (disoOK_iff_nth d X).1 h i (by omega)

theorem disoOK_iff_pairs (d : Int) (L : Stack) : Spec.DisoOK d L ↔ Spec.PairsWithin d L 0 (L.length - 1) := by
  rw [disoOK_iff_nth, pairsWithin_iff_nth]
  constructor
  · intro h i _ _ h2; exact h i h2
  · intro h i hi; exact h i (by omega) hi hi

/-- Symmetric laminate: the pairs of the half and those in the middle. -/
theorem pairsWithin_mirror {d : Int} (S M : Stack) (lo : Nat) (hM : M.length ≤ 1)
    (h1 : Spec.PairsWithin d S lo (S.length - 1))
    (h2 : Spec.DisoOK d (S.drop (S.length - 1) ++ M ++ (S.drop (S.length - 1)).reverse)) :
    Spec.PairsWithin d (S ++ M ++ S.reverse) lo ((S ++ M ++ S.reverse).length - 1 - lo) := by
  apply pairsWithin_of_cover
  intro i hlo hhi hi
  simp only [List.length_append, List.length_reverse] at hi hhi
  by_cases c1 : i + 1 < S.length
  · refine ⟨[], S, M ++ S.reverse, by simp, by simp, by simpa using c1, ?_⟩
    rw [pairsWithin_iff_nth] at h1
    exact h1 i hlo (by omega) (by omega)
  by_cases c2 : i < S.length + M.length
  · refine ⟨S.take (S.length - 1), S.drop (S.length - 1) ++ M ++ (S.drop (S.length - 1)).reverse,
      (S.take (S.length - 1)).reverse, ?_, ?_, ?_, ?_⟩
    · have e : S.reverse = (S.drop (S.length - 1)).reverse ++ (S.take (S.length - 1)).reverse := by
        rw [← List.reverse_append, List.take_append_drop]
      rw [e]
      simp only [← List.append_assoc, List.take_append_drop]
    · simp; omega
    · simp; omega
    · apply disoOK_nth h2
      simp; omega
  · refine ⟨S ++ M, S.reverse, [], by simp, by simp; omega, by simp; omega, ?_⟩
    rw [nth_reverse _ _ (by simp; omega), nth_reverse _ _ (by simp; omega)]
    apply withinAngle_comm
    rw [pairsWithin_iff_nth] at h1
    have := h1 (S.length - 1 - (i - (S ++ M).length + 1)) (by simp; omega) (by simp; omega) (by simp; omega)
    rw [show S.length - 1 - (i - (S ++ M).length + 1) + 1 = S.length - 1 - (i - (S ++ M).length) by
      simp; omega] at this
    exact this

theorem pairsWithin_snoc_r {d : Int} {S : Stack} {lo : Nat} {a : Int} (hS : S ≠ [])
    (h1 : Spec.PairsWithin d S lo (S.length - 1)) (h2 : Spec.WithinAngle d (nth S (S.length - 1)) a) :
    Spec.PairsWithin d (S ++ [a]) lo ((S ++ [a]).length - 1) := by
  have hl : 0 < S.length := List.length_pos_iff.2 hS
  rw [pairsWithin_iff_nth] at *
  intro i hlo hhi hi
  simp only [List.length_append, List.length_singleton] at hhi hi
  rw [nth_left _ _ _ (by omega)]
  by_cases c : i + 1 < S.length
  · rw [nth_left _ _ _ c]
    exact h1 i hlo (by omega) (by omega)
  · have e : i = S.length - 1 := by omega
    have : nth (S ++ [a]) (i + 1) = a := by
      have := nth_right S [a] 0 (by simp)
      rw [show i + 1 = S.length + 0 by omega, this]; rfl
    rw [this, e]; exact h2

theorem pairsWithin_append {d : Int} {A X G : Stack} {lo : Nat} (hX : X ≠ [])
    (h1 : Spec.PairsWithin d (A ++ X) lo ((A ++ X).length - 1)) (h2 : Spec.DisoOK d (X ++ G)) :
    Spec.PairsWithin d (A ++ X ++ G) lo ((A ++ X ++ G).length - 1) := by
  have hl : 0 < X.length := List.length_pos_iff.2 hX
  apply pairsWithin_of_cover
  intro i hlo hhi hi
  by_cases c : i + 1 < (A ++ X).length
  · refine ⟨[], A ++ X, G, by simp, by simp, by simpa using c, ?_⟩
    rw [pairsWithin_iff_nth] at h1
    exact h1 i hlo (by omega) (by omega)
  · simp only [List.length_append] at hi hhi c
    refine ⟨A, X ++ G, [], by simp, by omega, by simp; omega, ?_⟩
    apply disoOK_nth h2
    simp; omega

theorem disoOK_cons {d : Int} {S : Stack} {a : Int}
    (h1 : Spec.DisoOK d S) (h2 : Spec.WithinAngle d a (nth S 0)) : Spec.DisoOK d (a :: S) := by
  rw [disoOK_iff_nth] at *
  intro i hi
  cases i with
  | zero => exact h2
  | succ i => exact h1 i (by simp at hi; omega)

theorem disoOK_snoc {d : Int} {S : Stack} {a : Int} (hS : S ≠ [])
    (h1 : Spec.DisoOK d S) (h2 : Spec.WithinAngle d (nth S (S.length - 1)) a) :
    Spec.DisoOK d (S ++ [a]) := by
  rw [disoOK_iff_pairs] at *
  exact pairsWithin_snoc_r hS h1 h2

/-! ### the tests -/

/-- The constraints as the constructor makes them, with a supported contiguity limit. -/
def ContigCons (c : Cons) : Prop :=
  c.contig = true → 2 ≤ c.nContig ∧ c.nContig ≤ 6 ∧ c.nContigC = c.nContig

theorem testPly_total {c : Cons} (hc : ContigCons c) (a b : Int) (w : Stack) :
    ∃ r, testPly c a b w = .ok r := by
  unfold testPly
  split
  · exact ⟨_, rfl⟩
  · split
    · rename_i h
      obtain ⟨h2, h6, -⟩ := hc h
      exact isContig_total w _ h2 h6
    · exact ⟨_, rfl⟩

theorem testPly_true {c : Cons} (hc : ContigCons c) {a b : Int} {w : Stack}
    (h : testPly c a b w = .ok true) :
    (c.diso = true → isDiso a b c.deltaAngle = true) ∧
    (c.contig = true → Spec.ContigOK c.nContig w) := by
  unfold testPly at h
  split at h
  · cases h
  · rename_i h1
    refine ⟨?_, ?_⟩
    · intro hd
      cases hi : isDiso a b c.deltaAngle with
      | true => rfl
      | false => exact absurd ⟨hd, hi⟩ h1
    · intro hk
      obtain ⟨h2, h6, -⟩ := hc hk
      rw [if_pos hk] at h
      exact (isContig_ok_true w _ h2 h6).1 h

theorem isDisoSs_false (ss : Stack) (d : Int) : isDisoSs ss d false none none =
    .ok ((List.range (ss.length - 1)).all (fun i => isDiso (nth ss i) (nth ss (i + 1)) d)) := by
  unfold isDisoSs
  rw [if_neg (by simp)]

theorem testPart_total {c : Cons} (hc : ContigCons c) (w : Stack) : ∃ r, testPart c w = .ok r := by
  unfold testPart
  rw [isDisoSs_false]
  simp only [bind, Except.bind]
  split
  · exact ⟨_, rfl⟩
  · split
    · rename_i h
      obtain ⟨h2, h6, h7⟩ := hc h
      rw [h7]
      exact isContig_total w _ h2 h6
    · exact ⟨_, rfl⟩

theorem testPart_true {c : Cons} (hc : ContigCons c) {w : Stack} (h : testPart c w = .ok true) :
    (c.diso = true → InRange w → Spec.DisoOK c.deltaAngle w) ∧
    (c.contig = true → Spec.ContigOK c.nContig w) := by
  unfold testPart at h
  rw [isDisoSs_false] at h
  simp only [bind, Except.bind] at h
  split at h
  · cases h
  · rename_i h1
    refine ⟨?_, ?_⟩
    · intro hd hr
      rw [disoOK_iff_nth]
      intro i hi
      rw [← isDiso_iff _ _ _ (hr.nth i) (hr.nth (i + 1))]
      by_contra hc
      apply h1
      refine ⟨hd, ?_⟩
      rw [Bool.eq_false_iff]
      intro ht
      rw [List.all_eq_true] at ht
      exact hc (ht i (List.mem_range.2 hi))
    · intro hk
      obtain ⟨h2, h6, h7⟩ := hc hk
      rw [if_pos hk, h7] at h
      exact (isContig_ok_true w _ h2 h6).1 h

end Bella
