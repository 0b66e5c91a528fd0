import Verif.Proofs.FlexuralStep
/-
The tests, the objective and the main loop of the flexural repair by moves of plies.
-/
namespace Bella

theorem middleOf_congr {ss ss' : Stack} (hl : ss'.length = ss.length)
    (h : ss'.drop (ss.length / 2) = ss.drop (ss.length / 2)) : middleOf ss' = middleOf ss := by
  unfold middleOf
  rw [hl]
  split_ifs with h1
  · congr 1
    have := congrArg (fun (l : Stack) => l[0]?) h
    simp only [List.getElem?_drop, Nat.add_zero] at this
    rw [nth_getElem?, nth_getElem?, this]
  · rfl

theorem slice_zero {α : Type} (l : List α) (b : Nat) : slice l 0 b = l.take b := by
  unfold slice; simp

/-! ### the tests -/

theorem flexTestAsym_total {c : Cons} (hc : ContigCons c) (m : Stack) (lo hi i1 i2 : Nat) :
    ∃ b, flexTestAsym c m lo hi i1 i2 = .ok b := by
  unfold flexTestAsym
  generalize (if hi < m.length - 1 then some (nth m (hi + 1)) else none) = below
  split
  · exact ⟨_, rfl⟩
  · split
    · rename_i h2
      obtain ⟨g1, g2, -⟩ := hc h2
      obtain ⟨b1, e1⟩ := isContig_total (flexWindow c m i1) _ g1 g2
      obtain ⟨b2, e2⟩ := isContig_total (flexWindow c m i2) _ g1 g2
      rw [e1]
      simp only [bind, Except.bind]
      cases b1
      · exact ⟨_, rfl⟩
      · exact ⟨_, e2⟩
    · exact ⟨_, rfl⟩

theorem flexTestSym_total {c : Cons} (hc : ContigCons c) (ss m : Stack) (i1 i2 : Nat) :
    ∃ b, flexTestSym c ss m i1 i2 = .ok b := by
  unfold flexTestSym
  dsimp only
  generalize (if ss.length % 2 = 1 ∧ i2 = ss.length / 2 - 1 then some (nth ss (i2 + 1))
       else if i2 < ss.length / 2 - 1 then some (nth m (i2 + 1)) else none) = below
  by_cases h2 : c.contig = true
  · obtain ⟨g1, g2, -⟩ := hc h2
    have T : ∀ l, ∃ b, isContig l c.nContig = .ok b := fun l => isContig_total l _ g1 g2
    rw [if_pos h2]
    split
    · exact ⟨_, rfl⟩
    · split
      · exact T _
      · obtain ⟨b1, e1⟩ := T (slice m (i1 - c.nContig) (i1 + c.nContig + 1))
        rw [e1]
        simp only [bind, Except.bind]
        cases b1
        · exact ⟨false, rfl⟩
        · simp only [Bool.true_eq_false, if_false]
          split
          · exact T _
          · exact T _
  · rw [if_neg h2]
    split
    · exact ⟨_, rfl⟩
    · exact ⟨_, rfl⟩

theorem flexTest_total {c : Cons} (hc : ContigCons c) (rules : Bool) (ss : Stack) (even : Bool) (i1 i2 : Nat) :
    ∃ b, flexTest rules c ss even i1 i2 = .ok b := by
  unfold flexTest
  split
  · exact ⟨_, rfl⟩
  · split
    · exact flexTestAsym_total hc _ _ _ _ _
    · split
      · exact flexTestSym_total hc _ _ _ _
      · exact flexTestAsym_total hc _ _ _ _ _

theorem flexTestAsym_true {c : Cons} (hc : ContigCons c) {m : Stack} {lo hi i1 i2 : Nat}
    (h : flexTestAsym c m lo hi i1 i2 = .ok true) :
    (c.diso = true → flexDiso c m lo hi (if hi < m.length - 1 then some (nth m (hi + 1)) else none) = true) ∧
    (c.contig = true → WindowsOK c.nContig m (i1 - c.nContig) (i1 + c.nContig + 1) ∧
      WindowsOK c.nContig m (i2 - c.nContig) (i2 + c.nContig + 1)) := by
  unfold flexTestAsym at h
  generalize (if hi < m.length - 1 then some (nth m (hi + 1)) else none) = below at h ⊢
  split at h
  · simp at h
  rename_i hd
  refine ⟨?_, ?_⟩
  · intro h1
    by_contra hh
    exact hd ⟨h1, by simpa using hh⟩
  · intro h2
    obtain ⟨g1, g2, -⟩ := hc h2
    rw [if_pos h2] at h
    obtain ⟨b1, e1, h⟩ := bind_ok.1 h
    cases b1
    · simp [pure, Except.pure] at h
    · simp only [if_true] at h
      rw [isContig_ok_true _ _ g1 g2] at e1 h
      unfold flexWindow at e1 h
      exact ⟨(contigOK_slice_iff _ _ _ _).1 e1, (contigOK_slice_iff _ _ _ _).1 h⟩

theorem flexTestSym_true {c : Cons} (hc : ContigCons c) {ss m : Stack} {i1 i2 : Nat}
    (hm : m.length = ss.length / 2) (h12 : i1 < i2) (h2 : i2 < ss.length / 2)
    (h : flexTestSym c ss m i1 i2 = .ok true) :
    (c.diso = true → flexDiso c m i1 i2
      (if ss.length % 2 = 1 ∧ i2 = ss.length / 2 - 1 then some (nth ss (i2 + 1))
       else if i2 < ss.length / 2 - 1 then some (nth m (i2 + 1)) else none) = true) ∧
    (c.contig = true →
      WindowsOK c.nContig (fullOf (middleOf ss) m) (i1 - c.nContig) (i1 + c.nContig + 1) ∧
      WindowsOK c.nContig (fullOf (middleOf ss) m) (i2 - c.nContig) (i2 + c.nContig + 1)) := by
  unfold flexTestSym at h
  dsimp only at h
  generalize (if ss.length % 2 = 1 ∧ i2 = ss.length / 2 - 1 then some (nth ss (i2 + 1))
       else if i2 < ss.length / 2 - 1 then some (nth m (i2 + 1)) else none) = below at h ⊢
  split at h
  · simp at h
  rename_i hd
  refine ⟨?_, ?_⟩
  · intro h1
    by_contra hh
    exact hd ⟨h1, by simpa using hh⟩
  · intro hcg
    obtain ⟨g1, g2, -⟩ := hc hcg
    rw [if_pos hcg] at h
    have hN : (fullOf (middleOf ss) m).length = ss.length := by
      rw [fullOf_length, middleOf_length]; omega
    have wide : ∀ i, i < ss.length / 2 →
        isContig (slice (flexMirror ss m) (i - c.nContig) (ss.length - (i - c.nContig) - 1 + 1)) c.nContig = .ok true →
        ∀ j, i ≤ j → j < ss.length / 2 →
        WindowsOK c.nContig (fullOf (middleOf ss) m) (j - c.nContig) (j + c.nContig + 1) := by
      intro i hi ht j hij hj
      rw [isContig_ok_true _ _ g1 g2, contigOK_slice_iff, flexMirror_eq] at ht
      intro x x1 x2 x3
      exact ht x (by omega) (by omega) x3
    have narrow : ∀ i, i + c.nContig < ss.length / 2 - 1 →
        isContig (slice m (i - c.nContig) (i + c.nContig + 1)) c.nContig = .ok true →
        WindowsOK c.nContig (fullOf (middleOf ss) m) (i - c.nContig) (i + c.nContig + 1) := by
      intro i hi ht
      rw [isContig_ok_true _ _ g1 g2, contigOK_slice_iff] at ht
      intro x x1 x2 x3
      obtain ⟨j, hj, hne⟩ := ht x x1 x2 (by omega)
      refine ⟨j, hj, ?_⟩
      rwa [nth_full_left _ _ _ (by omega), nth_full_left _ _ _ (by omega)]
    split at h
    · exact ⟨wide i1 (by omega) h i1 (le_refl _) (by omega), wide i1 (by omega) h i2 (by omega) h2⟩
    · rename_i hmax
      obtain ⟨b1, e1, h⟩ := bind_ok.1 h
      cases b1
      · simp [pure, Except.pure] at h
      · simp only [Bool.true_eq_false, if_false] at h
        refine ⟨narrow i1 (by omega) e1, ?_⟩
        split at h
        · exact wide i2 h2 h i2 (le_refl _) h2
        · exact narrow i2 (by omega) h

theorem InRange.perm {l m : Stack} (h : InRange l) (hp : m.Perm l) : InRange m :=
  fun a ha => h a (hp.mem_iff.1 ha)

/-- The lay-up rules are kept by an accepted move. -/
theorem flexTest_rules {c : Cons} (hc : ContigCons c) {ss : Stack} {k : Nat} {even : Bool} {i1 i2 : Nat}
    (hv : ValidMove ss.length k c.sym even i1 i2) (ht : flexTest true c ss even i1 i2 = .ok true)
    {lo : Nat} (hlo : lo ≤ k) :
    (c.diso = true → InRange ss →
      Spec.PairsWithin c.deltaAngle (effOf c.sym ss) lo (ss.length - 1 - lo) →
      Spec.PairsWithin c.deltaAngle (effOf c.sym (movePly c.sym even ss i1 i2)) lo (ss.length - 1 - lo)) ∧
    (c.contig = true →
      WindowsOK c.nContig (effOf c.sym ss) lo (ss.length - lo) →
      WindowsOK c.nContig (effOf c.sym (movePly c.sym even ss i1 i2)) lo (ss.length - lo)) := by
  unfold flexTest at ht
  rw [if_neg (by simp)] at ht
  have hperm := hv.perm ss
  have hdrop := hv.drop ss rfl (ss.length / 2)
  have hwork := hv.work ss rfl
  unfold ValidMove at hv
  rcases hs : c.sym with _ | _
  · simp only [hs, true_and, Bool.false_eq_true, if_false] at ht hv hperm
    unfold effOf
    simp only [Bool.false_eq_true, if_false]
    unfold movePly at hperm ⊢
    simp only [true_and] at hperm ⊢
    by_cases he : even = true
    · rw [if_pos he] at ht hv hperm ⊢
      obtain ⟨t1, t2⟩ := flexTestAsym_true hc ht
      have hl := moveDown_length ss i2 i1 (by omega) (by omega)
      refine ⟨?_, ?_⟩
      · intro hd hr hp
        have hr' : InRange (moveDown ss i2 i1) := hr.perm hperm
        obtain ⟨u1, u2, u3, u4⟩ := flexDiso_true hr' (by
          intro x hx
          split at hx
          · cases hx; exact hr'.nth _
          · cases hx) (t1 hd)
        refine pairs_moveDown (by omega) (by omega) (by omega) hp u1 u3 ?_
        intro hlt
        exact u4 _ (by rw [if_pos (by omega)])
      · intro hcg hw
        obtain ⟨w1, w2⟩ := t2 hcg
        exact windows_moveDown (by omega) (by omega) (by omega) hw w2 w1
    · rw [if_neg he] at ht hv hperm ⊢
      obtain ⟨t1, t2⟩ := flexTestAsym_true hc ht
      have hl := moveUp_length ss i1 i2 (by omega) (by omega)
      refine ⟨?_, ?_⟩
      · intro hd hr hp
        have hr' : InRange (moveUp ss i1 i2) := hr.perm hperm
        obtain ⟨u1, u2, u3, u4⟩ := flexDiso_true hr' (by
          intro x hx
          split at hx
          · cases hx; exact hr'.nth _
          · cases hx) (t1 hd)
        refine pairs_moveUp (by omega) (by omega) (by omega) hp u1 u2 ?_
        intro hlt
        exact u4 _ (by rw [if_pos (by omega)])
      · intro hcg hw
        obtain ⟨w1, w2⟩ := t2 hcg
        exact windows_moveUp (by omega) (by omega) (by omega) hw w1 w2
  · simp only [hs, Bool.true_eq_false, false_and, if_false, if_true, slice_zero] at ht hv hperm hdrop hwork
    have hmid := middleOf_congr (hperm.length_eq) (hdrop (le_refl _))
    unfold effOf
    simp only [if_true]
    unfold workOf at hwork
    simp only [if_true] at hwork
    rw [hmid, hwork]
    unfold movePly
    simp only [Bool.true_eq_false, false_and, if_false]
    have hW : (ss.take (ss.length / 2)).length = ss.length / 2 := by simp; omega
    have hl := moveUp_length (ss.take (ss.length / 2)) i1 i2 (by omega) (by omega)
    have hN := fullOf_length (middleOf ss) (ss.take (ss.length / 2))
    have hN' := fullOf_length (middleOf ss) (moveUp (ss.take (ss.length / 2)) i1 i2)
    rw [middleOf_length] at hN hN'
    have e1 : (fullOf (middleOf ss) (ss.take (ss.length / 2))).length = ss.length := by omega
    have e2 : (fullOf (middleOf ss) (moveUp (ss.take (ss.length / 2)) i1 i2)).length = ss.length := by omega
    obtain ⟨t1, t2⟩ := flexTestSym_true hc (by omega) (by omega) (by omega) ht
    refine ⟨?_, ?_⟩
    · intro hd hr hp
      have hr' : InRange (moveUp (ss.take (ss.length / 2)) i1 i2) := by
        intro a ha
        exact hr a (List.mem_of_mem_take ((moveUp_perm _ _ _ (by omega)).mem_iff.1 ha))
      obtain ⟨u1, u2, u3, u4⟩ := flexDiso_true hr' (by
        intro x hx
        split at hx
        · cases hx; exact hr.nth _
        · split at hx
          · cases hx; exact hr'.nth _
          · cases hx) (t1 hd)
      have := pairs_full_moveUp (middleOf_le ss) (a := i1) (b := i2) (lo := lo)
        (W := ss.take (ss.length / 2)) (by omega) (by omega) (by omega) (by rw [e1]; exact hp) u1 u2 ?_ ?_
      · rwa [e2] at this
      · intro hlt
        rw [hW] at hlt
        exact u4 _ (by rw [if_neg (by omega), if_pos (by omega)])
      · intro heq x hx
        rw [hW] at heq
        unfold middleOf at hx
        split at hx
        · rename_i hodd
          have hx' : nth ss (ss.length / 2) = x := by simpa using hx
          refine u4 _ ?_
          rw [if_pos (by omega), heq, hx']
        · simp at hx
    · intro hcg hw
      obtain ⟨w1, w2⟩ := t2 hcg
      have := windows_full_moveUp (middleOf_le ss) (a := i1) (b := i2) (lo := lo)
        (W := ss.take (ss.length / 2)) (by omega) (by omega) (by omega) (by rw [e1]; exact hw) w1 w2
      rwa [e2] at this

end Bella
