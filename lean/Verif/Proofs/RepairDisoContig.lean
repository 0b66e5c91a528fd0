import Verif.Model.RepairDisoContig
import Verif.Proofs.Diso
import Verif.Proofs.Monad
/-
Lemmas on the search shared by the four functions repairing the disorientation and contiguity.
-/
namespace Bella

/-- The plies already determined among those of the given indices. -/
def known (ss : Stack) (ind : List Nat) : List Int := (ind.map (nth ss)).filter (fun a => decide (a ≠ 666))

/-- The number of plies to be taken from the queue among those of the given indices. -/
def missing (ss : Stack) (ind : List Nat) : Nat := (ind.map (nth ss)).count 666

theorem known_cons_of_ne {ss : Stack} {i : Nat} {l : List Nat} (h : nth ss i ≠ 666) :
    known ss (i :: l) = nth ss i :: known ss l := by
  simp [known, h]

theorem known_cons_of_eq {ss : Stack} {i : Nat} {l : List Nat} (h : nth ss i = 666) :
    known ss (i :: l) = known ss l := by
  simp [known, h]

theorem missing_cons_of_ne {ss : Stack} {i : Nat} {l : List Nat} (h : nth ss i ≠ 666) :
    missing ss (i :: l) = missing ss l := by
  simp [missing, h]

theorem missing_cons_of_eq {ss : Stack} {i : Nat} {l : List Nat} (h : nth ss i = 666) :
    missing ss (i :: l) = missing ss l + 1 := by
  simp [missing, h]

theorem known_perm {ss : Stack} {l l' : List Nat} (h : l.Perm l') :
    (known ss l).Perm (known ss l') := (h.map _).filter _

theorem missing_perm {ss : Stack} {l l' : List Nat} (h : l.Perm l') :
    missing ss l = missing ss l' := (h.map _).count_eq _

theorem known_length (ss : Stack) (l : List Nat) : (known ss l).length + missing ss l = l.length := by
  induction l with
  | nil => rfl
  | cons i l ih =>
    by_cases h : nth ss i = 666
    · rw [known_cons_of_eq h, missing_cons_of_eq h, List.length_cons]; omega
    · rw [known_cons_of_ne h, missing_cons_of_ne h, List.length_cons, List.length_cons]; omega

theorem orderPlies_one (a : Int) (q angles : List Int) :
    ∃ l, orderPlies [a] q angles = .ok l ∧ ∀ x ∈ l, x ∈ q := by
  refine ⟨_, rfl, fun x hx => ?_⟩
  simpa using (List.mem_filter.1 hx).2

theorem firstOk_spec (ok : Int → Py Bool) (hok : ∀ a, ∃ b, ok a = .ok b) (l : List Int) :
    (firstOk ok l = .ok none ∧ ∀ a ∈ l, ok a = .ok false) ∨
      ∃ a, firstOk ok l = .ok (some a) ∧ a ∈ l ∧ ok a = .ok true := by
  induction l with
  | nil => exact Or.inl ⟨rfl, by simp⟩
  | cons a l ih =>
    obtain ⟨b, hb⟩ := hok a
    cases b with
    | true =>
      refine Or.inr ⟨a, ?_, by simp, hb⟩
      rw [firstOk, hb]; rfl
    | false =>
      have e : firstOk ok (a :: l) = firstOk ok l := by rw [firstOk, hb]; rfl
      rw [e]
      rcases ih with ⟨h1, h2⟩ | ⟨x, h1, h2, h3⟩
      · refine Or.inl ⟨h1, ?_⟩
        intro x hx
        rcases List.mem_cons.1 hx with rfl | hx
        · exact hb
        · exact h2 x hx
      · exact Or.inr ⟨x, h1, by simp [h2], h3⟩

theorem pickPly_spec (ss : Stack) (order : List Int) (ok : Int → Py Bool)
    (hok : ∀ a, ∃ b, ok a = .ok b) (ind : List Nat) :
    pickPly ss order ok ind = .ok none ∨
      ∃ i a fq, pickPly ss order ok ind = .ok (some (i, a, fq)) ∧ i ∈ ind ∧ ok a = .ok true ∧
        ((fq = false ∧ a = nth ss i ∧ nth ss i ≠ 666) ∨ (fq = true ∧ nth ss i = 666 ∧ a ∈ order)) := by
  induction ind with
  | nil => exact Or.inl rfl
  | cons i l ih =>
    by_cases h : nth ss i = 666
    · rcases firstOk_spec ok hok order with ⟨h1, -⟩ | ⟨a, h1, h2, h3⟩
      · have e : pickPly ss order ok (i :: l) = pickPly ss order ok l := by
          rw [pickPly, if_neg (by simpa using h), h1]; rfl
        rw [e]
        rcases ih with h1 | ⟨j, a, fq, h1, h2, h3⟩
        · exact Or.inl h1
        · exact Or.inr ⟨j, a, fq, h1, by simp [h2], h3⟩
      · refine Or.inr ⟨i, a, true, ?_, by simp, h3, Or.inr ⟨rfl, h, h2⟩⟩
        rw [pickPly, if_neg (by simpa using h), h1]; rfl
    · obtain ⟨b, hb⟩ := hok (nth ss i)
      cases b with
      | true =>
        refine Or.inr ⟨i, nth ss i, false, ?_, by simp, hb, Or.inl ⟨rfl, rfl, h⟩⟩
        rw [pickPly, if_pos h, hb]; rfl
      | false =>
        have e : pickPly ss order ok (i :: l) = pickPly ss order ok l := by
          rw [pickPly, if_pos h, hb]; rfl
        rw [e]
        rcases ih with h1 | ⟨j, a, fq, h1, h2, h3⟩
        · exact Or.inl h1
        · exact Or.inr ⟨j, a, fq, h1, by simp [h2], h3⟩

theorem perm_erase_nat {i : Nat} {l : List Nat} (h : i ∈ l) : l.Perm (i :: l.erase i) :=
  List.perm_cons_erase h

/-- The search: it never fails; the plies placed, those left and the queue are always the same plies
altogether; `I` is any property of the plies placed kept by an accepted ply. -/
theorem searchLoop_spec {σ : Type} (ss : Stack) (angles : List Int) (adj : Nat → σ → Int)
    (ok : Nat → σ → Int → Py Bool) (place : Nat → σ → Int → σ) (content : σ → List Int)
    (P : Int → Prop) (I : Nat → σ → Prop)
    (hok : ∀ (k : Nat) (s : σ) (a : Int), ∃ b, ok k s a = .ok b)
    (hplace : ∀ (k : Nat) (s : σ) (a : Int), (content (place k s a)).Perm (a :: content s))
    (hI : ∀ (k : Nat) (s : σ) (a : Int), I k s → P a → ok k s a = .ok true → I (k + 1) (place k s a)) :
    ∀ (steps k : Nat) (s : σ) (ind : List Nat) (q : List Int), I k s →
      (∀ a ∈ known ss ind, P a) → (∀ a ∈ q, P a) →
      ∃ found k' s' ind' q',
        searchLoop ss angles adj ok place steps k s ind q = .ok (found, k', s', ind', q') ∧
        I k' s' ∧
        (content s' ++ known ss ind' ++ q').Perm (content s ++ known ss ind ++ q) ∧
        missing ss ind' + q.length = missing ss ind + q'.length ∧
        ind'.Sublist ind ∧ ind'.length + k' = ind.length + k ∧ k ≤ k' ∧ k' ≤ k + steps ∧
        (found = true → k' = k + steps) ∧ q'.Sublist q := by
  intro steps
  induction steps with
  | zero =>
    intro k s ind q h _ _
    exact ⟨true, k, s, ind, q, rfl, h, .refl _, rfl, .refl _, rfl, le_rfl, by omega, by simp, .refl _⟩
  | succ steps ih =>
    intro k s ind q hs hP hQ
    obtain ⟨order, ho1, ho2⟩ := orderPlies_one (adj k s) q angles
    rcases pickPly_spec ss order (ok k s) (hok k s) ind with h | ⟨i, a, fq, h, h2, h3, h4⟩
    · refine ⟨false, k, s, ind, q, ?_, hs, .refl _, rfl, .refl _, rfl, le_rfl, by omega, by simp, .refl _⟩
      rw [searchLoop, ho1]
      show (pickPly ss order (ok k s) ind >>= _) = _
      rw [h]; rfl
    · have hpe := perm_erase_nat h2
      have hPa : P a := by
        rcases h4 with ⟨_, h5, h6⟩ | ⟨_, h5, h6⟩
        · apply hP
          rw [h5, (known_perm hpe).mem_iff, known_cons_of_ne h6]; simp
        · exact hQ a (ho2 a h6)
      obtain ⟨found, k', s', ind', q', e1, e2, e3, e4, e5, e6, e7, e8, e9, e10⟩ :=
        ih (k + 1) (place k s a) (ind.erase i) (if fq then q.erase a else q) (hI k s a hs hPa h3)
          (by
            intro x hx
            apply hP
            have : (known ss (i :: ind.erase i)) ⊇ known ss (ind.erase i) := by
              intro y hy
              by_cases h : nth ss i = 666
              · rw [known_cons_of_eq h]; exact hy
              · rw [known_cons_of_ne h]; simp [hy]
            exact (known_perm hpe).mem_iff.2 (this hx))
          (by
            intro x hx
            apply hQ
            split at hx
            · exact List.mem_of_mem_erase hx
            · exact hx)
      refine ⟨found, k', s', ind', q', ?_, e2, ?_, ?_, e5.trans List.erase_sublist, ?_, by omega, by omega,
        ?_, ?_⟩
      · rw [searchLoop, ho1]
        show (pickPly ss order (ok k s) ind >>= _) = _
        rw [h]; exact e1
      · refine e3.trans ?_
        have hp := hplace k s a
        rcases h4 with ⟨rfl, h5, h6⟩ | ⟨rfl, h5, h6⟩
        · have hk := known_perm (ss := ss) hpe
          rw [known_cons_of_ne h6, ← h5] at hk
          simp only [Bool.false_eq_true, if_false]
          apply List.Perm.append_right
          refine (hp.append_right _).trans ?_
          refine List.Perm.trans ?_ (List.Perm.append_left (content s) hk.symm)
          exact (List.perm_middle).symm
        · have hk := known_perm (ss := ss) hpe
          rw [known_cons_of_eq h5] at hk
          simp only [if_true]
          have hq := List.perm_cons_erase (ho2 a h6)
          refine ((hp.append_right _).append_right _).trans ?_
          refine List.Perm.trans ?_ (List.Perm.append_left (content s ++ known ss ind) hq.symm)
          refine List.Perm.trans ?_ (List.perm_middle).symm
          show (a :: (content s ++ known ss (ind.erase i) ++ q.erase a)).Perm _
          refine List.Perm.cons _ (List.Perm.append_right _ (List.Perm.append_left _ hk.symm))
      · have hm := missing_perm (ss := ss) hpe
        rcases h4 with ⟨rfl, h5, h6⟩ | ⟨rfl, h5, h6⟩
        · rw [missing_cons_of_ne h6] at hm
          simp only [Bool.false_eq_true, if_false] at e4
          omega
        · rw [missing_cons_of_eq h5] at hm
          have := List.length_erase_of_mem (ho2 a h6)
          have h1 : 0 < q.length := List.length_pos_of_mem (ho2 a h6)
          simp only [if_true] at e4
          omega
      · have := List.length_erase_of_mem h2
        have h1 : 0 < ind.length := List.length_pos_of_mem h2
        omega
      · intro hf; have := e9 hf; omega
      · refine e10.trans ?_
        split
        · exact List.erase_sublist
        · exact .refl _

theorem fillPlies_spec (ss : Stack) : ∀ (ind : List Nat) (q : List Int), missing ss ind ≤ q.length →
    ∃ pl q', fillPlies ss ind q = .ok (pl, q') ∧ pl.length = ind.length ∧
      (pl ++ q').Perm (known ss ind ++ q) ∧ q'.length + missing ss ind = q.length ∧
      q' = q.drop (missing ss ind) := by
  intro ind
  induction ind with
  | nil => intro q _; exact ⟨[], q, rfl, rfl, .refl _, by simp [missing], by simp [missing]⟩
  | cons i ind ih =>
    intro q hq
    by_cases h : nth ss i = 666
    · rw [missing_cons_of_eq h] at hq ⊢
      obtain ⟨a, q0, rfl⟩ : ∃ a q0, q = a :: q0 := by
        cases q with
        | nil => simp at hq
        | cons a q0 => exact ⟨a, q0, rfl⟩
      obtain ⟨pl, q', e1, e2, e3, e4, e5⟩ := ih q0 (by simpa using hq)
      refine ⟨a :: pl, q', ?_, by simp [e2], ?_, by simp; omega, by rw [e5]; rfl⟩
      · rw [fillPlies.eq_def]
        dsimp only
        rw [if_neg (by simpa using h), e1]; rfl
      · rw [known_cons_of_eq h]
        exact (e3.cons a).trans List.perm_middle.symm
    · rw [missing_cons_of_ne h] at hq ⊢
      obtain ⟨pl, q', e1, e2, e3, e4, e5⟩ := ih q hq
      refine ⟨nth ss i :: pl, q', ?_, by simp [e2], ?_, e4, e5⟩
      · rw [fillPlies.eq_def]
        dsimp only
        rw [if_pos h, e1]; rfl
      · rw [known_cons_of_ne h]
        exact e3.cons _

/-! ### permutations -/

theorem keepPerms_spec (test : List Nat → Py Bool) (htest : ∀ p, ∃ b, test p = .ok b) (ps : List (List Nat)) :
    ∃ r, keepPerms test ps = .ok r ∧ ∀ p, p ∈ r ↔ p ∈ ps ∧ test p = .ok true := by
  induction ps with
  | nil => exact ⟨[], rfl, by simp⟩
  | cons p ps ih =>
    obtain ⟨r, h1, h2⟩ := ih
    obtain ⟨b, hb⟩ := htest p
    refine ⟨if b then p :: r else r, by rw [keepPerms, hb]; show (keepPerms test ps >>= _) = _; rw [h1]; rfl, ?_⟩
    intro x
    cases b with
    | true =>
      simp only [if_true, List.mem_cons, h2]
      constructor
      · rintro (rfl | ⟨h3, h4⟩)
        · exact ⟨Or.inl rfl, hb⟩
        · exact ⟨Or.inr h3, h4⟩
      · rintro ⟨rfl | h3, h4⟩
        · exact Or.inl rfl
        · exact Or.inr ⟨h3, h4⟩
    | false =>
      simp only [Bool.false_eq_true, if_false, List.mem_cons, h2]
      constructor
      · rintro ⟨h3, h4⟩; exact ⟨Or.inr h3, h4⟩
      · rintro ⟨rfl | h3, h4⟩
        · rw [hb] at h4; cases h4
        · exact ⟨h3, h4⟩

theorem permute_perm (l : List Int) (p : List Nat) (h : p.Perm (List.range l.length)) :
    (permute l p).Perm l := by
  have e : (List.range l.length).map (fun (i : Nat) => nth l i) = l := by
    apply List.ext_getElem
    · simp
    · intro i h1 h2
      simp [nth, List.getD, h2]
  have := h.map (fun (i : Nat) => nth l i)
  rw [e] at this
  exact this

end Bella
