import Verif.Proofs.RepairSymIn
/-
The repair of asymmetric laminates from the outside.
-/
namespace Bella

theorem interleaveInd_perm : ∀ (a b : List Nat), (interleaveInd a b).Perm (a ++ b)
  | [], b => by simp [interleaveInd]
  | x :: a, [] => by simp [interleaveInd]
  | x :: a, y :: b => by
    rw [interleaveInd]
    refine List.Perm.cons x ?_
    refine ((interleaveInd_perm a b).cons y).trans ?_
    exact List.perm_middle.symm

theorem range'_reverse_cons (a m : Nat) :
    (List.range' a (m + 1)).reverse = (a + m) :: (List.range' a m).reverse := by
  rw [List.range'_1_concat, List.reverse_append]; rfl

/-- The plies the repair from the outside may move: all those not protected. -/
theorem outsideOrder_perm (n b : Nat) (h : 2 * (b + 1) ≤ n) :
    ((outsideOrder n b).drop 2).Perm (List.range' (b + 1) (n - 2 * (b + 1))) ∧
      (outsideOrder n b).length = n - 2 * b := by
  unfold outsideOrder
  constructor
  · rw [show n - b - n / 2 = (n - b - n / 2 - 1) + 1 by omega, range'_reverse_cons,
      show n / 2 - b = (n / 2 - b - 1) + 1 by omega, List.range'_succ, interleaveInd, List.drop_succ_cons,
      List.drop_succ_cons, List.drop_zero]
    refine (interleaveInd_perm _ _).trans ?_
    refine ((List.reverse_perm _).append_right _).trans ?_
    refine List.perm_append_comm.trans ?_
    have e : List.range' (b + 1) (n - 2 * (b + 1)) = List.range' (b + 1) (n / 2 - b - 1) ++
        List.range' (n / 2) (n - b - n / 2 - 1) := by
      rw [show n - 2 * (b + 1) = (n / 2 - b - 1) + (n - b - n / 2 - 1) by omega, ← List.range'_append_1,
        show b + 1 + (n / 2 - b - 1) = n / 2 by omega]
    rw [e]
  · rw [(interleaveInd_perm _ _).length_eq]
    simp; omega

/-- Invariant of the plies placed by the repair from the outside. -/
structure OutAsymInv (c : Cons) (attr : DamTolAttr) (ss : Stack) (H : Prop) (k : Nat) (s : Stack × Stack) :
    Prop where
  pre : ss.take (nKeptOut c attr) <+: s.1
  suf : ss.drop (ss.length - nKeptOut c attr) <:+ s.2
  top : s.1.length = nKeptOut c attr + k / 2
  bot : s.2.length = nKeptOut c attr + (k + 1) / 2
  rng : H → InRange s.1 ∧ InRange s.2
  diso : H → c.diso = true → Spec.PairsWithin c.deltaAngle s.1 (nKeptOut c attr - 1) (s.1.length - 1) ∧
    Spec.PairsWithin c.deltaAngle s.2 0 (s.2.length - 1 - (nKeptOut c attr - 1))
  contig : c.contig = true → Spec.ContigOK c.nContig s.1 ∧ Spec.ContigOK c.nContig s.2

theorem pairsWithin_cons {d : Int} {S : Stack} {a : Int} {hi : Nat}
    (h1 : Spec.PairsWithin d S 0 (hi - 1)) (h2 : Spec.WithinAngle d a (nth S 0)) :
    Spec.PairsWithin d (a :: S) 0 hi := by
  rw [pairsWithin_iff_nth] at *
  intro i _ hhi hi
  simp only [List.length_cons] at hi
  cases i with
  | zero => exact h2
  | succ i => exact h1 i (by omega) (by omega) (by omega)

theorem contigOK_snoc_window {n : Nat} (hn : 2 ≤ n) {s : Stack} {a : Int} (h : Spec.ContigOK n s)
    (ht : Spec.ContigOK n (lastK (s ++ [a]) (2 * n))) : Spec.ContigOK n (s ++ [a]) := by
  have e : lastK (s ++ [a]) (2 * n) = s.drop (s.length + 1 - 2 * n) ++ [a] := by
    unfold lastK
    rw [if_neg (by omega), List.length_append, List.length_singleton, drop_append_split _ _ _ (by omega)]
  rw [e] at ht
  have := contigOK_overlap (s.take (s.length + 1 - 2 * n)) (s.drop (s.length + 1 - 2 * n)) [a]
    (by rw [List.take_append_drop]; exact h) ht
    (by
      by_cases hl : s.length + 1 ≤ 2 * n
      · left; rw [show s.length + 1 - 2 * n = 0 by omega]; rfl
      · right; simp; omega)
  rwa [List.take_append_drop] at this

theorem contigOK_cons_window {n : Nat} (hn : 2 ≤ n) {s : Stack} {a : Int} (h : Spec.ContigOK n s)
    (ht : Spec.ContigOK n ((a :: s).take (2 * n))) : Spec.ContigOK n (a :: s) := by
  have e : (a :: s).take (2 * n) = [a] ++ s.take (2 * n - 1) := by
    rw [show 2 * n = (2 * n - 1) + 1 by omega, List.take_succ_cons]; rfl
  rw [e] at ht
  by_cases hl : s.length ≤ 2 * n - 1
  · rw [List.take_of_length_le hl] at ht; exact ht
  · have := contigOK_overlap [a] (s.take (2 * n - 1)) (s.drop (2 * n - 1)) ht
      (by rw [List.take_append_drop]; exact h) (Or.inr (by simp; omega))
    rwa [List.append_assoc, List.take_append_drop] at this

theorem suffix_cons_of {a : Int} {b c : Stack} (h : b <:+ c) : b <:+ a :: c := h.trans (List.suffix_cons _ _)

theorem OutAsymInv.step {c : Cons} (hc : ContigCons c) {attr : DamTolAttr} {ss : Stack} {H : Prop} {k : Nat}
    {s : Stack × Stack} {a : Int}
    (h : OutAsymInv c attr ss H k s) (hP : H → -90 ≤ a ∧ a ≤ 90)
    (ht : (if k % 2 = 0 then testPly c a (nth s.2 0) ((a :: s.2).take (2 * c.nContig))
        else testPly c a (nth s.1 (s.1.length - 1)) (lastK (s.1 ++ [a]) (2 * c.nContig))) = .ok true) :
    OutAsymInv c attr ss H (k + 1) (if k % 2 = 0 then (s.1, a :: s.2) else (s.1 ++ [a], s.2)) := by
  have hp := (nKeptOut_pos c attr).1
  by_cases hk : k % 2 = 0
  · rw [if_pos hk] at ht ⊢
    obtain ⟨h1, h2⟩ := testPly_true hc ht
    refine ⟨h.pre, suffix_cons_of h.suf, ?_, ?_, ?_, ?_, ?_⟩
    · rw [h.top]; omega
    · rw [List.length_cons, h.bot]; omega
    · intro hH
      refine ⟨(h.rng hH).1, ?_⟩
      intro x hx
      rcases List.mem_cons.1 hx with rfl | hx
      · exact hP hH
      · exact (h.rng hH).2 x hx
    · intro hH hd
      refine ⟨(h.diso hH hd).1, pairsWithin_cons ?_ ?_⟩
      · rw [List.length_cons]
        have := (h.diso hH hd).2
        rwa [show s.2.length + 1 - 1 - (nKeptOut c attr - 1) - 1 = s.2.length - 1 - (nKeptOut c attr - 1) by omega]
      · have := h1 hd
        rwa [isDiso_iff _ _ _ (hP hH) ((h.rng hH).2.nth _)] at this
    · intro hk'
      obtain ⟨g2, -⟩ := hc hk'
      exact ⟨(h.contig hk').1, contigOK_cons_window g2 (h.contig hk').2 (h2 hk')⟩
  · rw [if_neg hk] at ht ⊢
    obtain ⟨h1, h2⟩ := testPly_true hc ht
    have hs : s.1 ≠ [] := List.length_pos_iff.1 (by rw [h.top]; omega)
    refine ⟨prefix_append_of h.pre, h.suf, ?_, ?_, ?_, ?_, ?_⟩
    · rw [List.length_append, h.top, List.length_singleton]; omega
    · rw [h.bot]; omega
    · intro hH
      refine ⟨?_, (h.rng hH).2⟩
      intro x hx
      rcases List.mem_append.1 hx with hx | hx
      · exact (h.rng hH).1 x hx
      · rw [List.mem_singleton.1 hx]; exact hP hH
    · intro hH hd
      refine ⟨pairsWithin_snoc_r hs (h.diso hH hd).1 ?_, (h.diso hH hd).2⟩
      have := h1 hd
      rw [isDiso_iff _ _ _ (hP hH) ((h.rng hH).1.nth _)] at this
      exact withinAngle_comm this
    · intro hk'
      obtain ⟨g2, -⟩ := hc hk'
      exact ⟨contigOK_snoc_window g2 (h.contig hk').1 (h2 hk'), (h.contig hk').2⟩

theorem outsideAsymTest_total {c : Cons} (hc : ContigCons c) (attr : DamTolAttr) (top bottom : Stack) (D : Nat)
    (g : Stack) : ∃ b, outsideAsymTest c attr top bottom D g = .ok b := by
  unfold outsideAsymTest
  exact testPart_total hc _

/-- The laminate accepted by the test of the last plies is fine. -/
theorem outsideAsym_final {c : Cons} (hc : ContigCons c) {attr : DamTolAttr} {ss : Stack} {H : Prop} {k : Nat}
    {top bottom g : Stack} {D : Nat} (hI : OutAsymInv c attr ss H k (top, bottom))
    (hg : g.length = D) (hrg : H → InRange g) (hr : ∃ r, attr = .rule r) (hkD : k = 0 ∨ 1 ≤ D)
    (ht : outsideAsymTest c attr top bottom D g = .ok true) :
    (H → c.diso = true →
      Spec.PairsWithin c.deltaAngle (top ++ g ++ bottom) (nKeptOut c attr - 1)
        ((top ++ g ++ bottom).length - 1 - (nKeptOut c attr - 1))) ∧
    (c.contig = true → c.nContig ≤ D ∨ (k = 0 ∧ 1 ≤ D) →
      Spec.ContigOK c.nContig (top ++ g ++ bottom)) := by
  obtain ⟨hp1, hp2⟩ := nKeptOut_pos c attr
  have htop : top.length = nKeptOut c attr + k / 2 := hI.top
  have hbot : bottom.length = nKeptOut c attr + (k + 1) / 2 := hI.bot
  have key : testPart c (top.drop (bottom.length - D - 1) ++ g ++ bottom.take (min bottom.length (D + 1))) =
      .ok true := by
    obtain ⟨r, rfl⟩ := hr
    unfold outsideAsymTest at ht
    have e : miniOf c (.rule r) (bottom.length - D - 1) = bottom.length - D - 1 := by
      unfold miniOf
      rw [if_neg (by simp)]
    dsimp only at ht
    rw [e, if_neg (by simp)] at ht
    exact ht
  have hX : (top.drop (bottom.length - D - 1)).length = top.length - (bottom.length - D - 1) := by simp
  have hX1 : 1 ≤ top.length - (bottom.length - D - 1) := by
    rcases hkD with rfl | h
    · omega
    · omega
  have hY : (bottom.take (min bottom.length (D + 1))).length = min bottom.length (D + 1) := by simp
  constructor
  · intro hH hd
    have ht' := (testPart_true hc key).1 hd (by
      intro x hx
      rcases List.mem_append.1 hx with hx | hx
      · rcases List.mem_append.1 hx with hx | hx
        · exact (hI.rng hH).1 x (List.mem_of_mem_drop hx)
        · exact hrg hH x hx
      · exact (hI.rng hH).2 x (List.mem_of_mem_take hx))
    obtain ⟨d1, d2⟩ := hI.diso hH hd
    simp only at d1 d2
    apply pairsWithin_of_cover
    intro i hlo hhi hi
    simp only [List.length_append] at hi hhi
    by_cases c1 : i + 1 < top.length
    · refine ⟨[], top, g ++ bottom, by simp, by simp, by simpa using c1, ?_⟩
      rw [pairsWithin_iff_nth] at d1
      exact d1 i hlo (by omega) (by omega)
    by_cases c2 : top.length + D ≤ i
    · refine ⟨top ++ g, bottom, [], by simp, by simp; omega, by simp; omega, ?_⟩
      rw [pairsWithin_iff_nth] at d2
      exact d2 _ (by omega) (by simp; omega) (by simp; omega)
    · refine ⟨top.take (bottom.length - D - 1),
        top.drop (bottom.length - D - 1) ++ g ++ bottom.take (min bottom.length (D + 1)),
        bottom.drop (min bottom.length (D + 1)), ?_, ?_, ?_, ?_⟩
      · simp only [← List.append_assoc, List.take_append_drop]
        rw [List.append_assoc _ (List.take _ _), List.take_append_drop]
      · simp; omega
      · simp only [List.length_append, hX, hY, hg, List.length_take]; omega
      · apply disoOK_nth ht'
        simp only [List.length_append, hX, hY, hg, List.length_take]; omega
  · intro hk hn
    obtain ⟨g2, -⟩ := hc hk
    have ht' := (testPart_true hc key).2 hk
    have h1 : Spec.ContigOK c.nContig (top.take (bottom.length - D - 1) ++ top.drop (bottom.length - D - 1) ++
        (g ++ bottom.take (min bottom.length (D + 1)))) := by
      apply contigOK_overlap
      · rw [List.take_append_drop]; exact (hI.contig hk).1
      · rw [← List.append_assoc]; exact ht'
      · by_cases hz : bottom.length - D - 1 = 0
        · left; rw [hz]; rfl
        · right; rw [hX]; omega
    rw [List.take_append_drop] at h1
    by_cases hB : bottom.length ≤ D + 1
    · rw [List.take_of_length_le (by omega)] at h1
      rwa [← List.append_assoc] at h1
    · have h2 := contigOK_overlap (top ++ g) (bottom.take (min bottom.length (D + 1)))
        (bottom.drop (min bottom.length (D + 1))) (by rwa [← List.append_assoc] at h1)
        (by rw [List.take_append_drop]; exact (hI.contig hk).2) (Or.inr (by rw [hY]; omega))
      rwa [List.append_assoc (top ++ g), List.take_append_drop] at h2

/-- `repair_diso_contig_from_outside_asym`. -/
theorem repairOutsideAsym_spec {c : Cons} (hc : ContigCons c) (attr : DamTolAttr) (nD1 : Nat) (ss : Stack)
    (q : List Int) (hlen : 2 * nKeptOut c attr ≤ ss.length)
    (hout : ∀ i, i < nKeptOut c attr → nth ss i ≠ 666 ∧ nth ss (ss.length - 1 - i) ≠ 666)
    (hq : ss.count 666 ≤ q.length) :
    ∃ res b q', repairOutsideAsym c attr nD1 ss q = .ok (res, b, q') ∧
      res.length = ss.length ∧ ss.take (nKeptOut c attr) <+: res ∧
      ss.drop (ss.length - nKeptOut c attr) <:+ res ∧
      (res ++ q').Perm (ss.filter (fun x => decide (x ≠ 666)) ++ q) ∧
      q'.length + ss.count 666 = q.length ∧
      (b = true → PliesInRange ss q → (∃ r, attr = .rule r) → 1 ≤ nD1 → c.diso = true →
        Spec.PairsWithin c.deltaAngle res (nKeptOut c attr - 1) (res.length - 1 - (nKeptOut c attr - 1))) ∧
      (b = true → c.contig = true → (∃ r, attr = .rule r) → c.nContig ≤ nD1 →
        2 * nKeptOut c attr < ss.length → Spec.ContigOK c.nContig res) := by
  obtain ⟨hp1, hp2⟩ := nKeptOut_pos c attr
  generalize hk0 : nKeptOut c attr = s0 at *
  have hl2 : s0 ≤ ss.length := by omega
  obtain ⟨hind, hindl⟩ := outsideOrder_perm ss.length (s0 - 1) (by omega)
  rw [show s0 - 1 + 1 = s0 by omega] at hind
  have hsplit : ss = ss.take s0 ++ (ss.drop s0).take (ss.length - 2 * s0) ++ ss.drop (ss.length - s0) := by
    rw [← take_split, show s0 + (ss.length - 2 * s0) = ss.length - s0 by omega, List.take_append_drop]
  have hbk : ∀ a ∈ ss.drop (ss.length - s0), a ≠ 666 := by
    intro a ha
    obtain ⟨i, hi, rfl⟩ := List.getElem_of_mem ha
    simp only [List.length_drop] at hi
    rw [List.getElem_drop]
    have := (hout (s0 - 1 - i) (by omega)).2
    rw [nth_eq_getElem _ _ (by omega)] at this
    intro hh
    apply this
    rw [← hh]
    congr 1; omega
  have hfil : ss.filter (fun x => decide (x ≠ 666)) = ss.take s0 ++
      known ss (List.range' s0 (ss.length - 2 * s0)) ++ ss.drop (ss.length - s0) := by
    conv_lhs => rw [hsplit, List.filter_append, List.filter_append]
    rw [known_range' _ _ _ (by omega), filter_take_known hl2 (fun i hi => (hout i hi).1)]
    congr 1
    rw [List.filter_eq_self]
    intro a ha
    exact decide_eq_true (hbk a ha)
  have hcnt : ss.count 666 = missing ss (List.range' s0 (ss.length - 2 * s0)) := by
    conv_lhs => rw [hsplit, List.count_append, List.count_append]
    rw [missing_range' _ _ _ (by omega), count_take_known hl2 (fun i hi => (hout i hi).1)]
    have : (ss.drop (ss.length - s0)).count 666 = 0 := by
      rw [List.count_eq_zero]
      intro hm; exact hbk _ hm rfl
    omega
  have hinit : OutAsymInv c attr ss (PliesInRange ss q) 0 (ss.take s0, ss.drop (ss.length - s0)) := by
    refine ⟨by rw [hk0], by rw [hk0], by simp; omega, by simp; omega, ?_, ?_, ?_⟩
    · intro H
      constructor
      · intro a ha
        obtain ⟨i, hi, rfl⟩ := List.mem_take_iff_getElem.1 ha
        have h2 := (hout i (by omega)).1
        rw [nth_eq_getElem _ _ (by omega)] at h2
        exact H.1 _ (List.getElem_mem _) h2
      · intro a ha
        exact H.1 a (List.mem_of_mem_drop ha) (hbk a ha)
    · intro _ _
      constructor
      · rw [pairsWithin_iff_nth]
        intro i h1 h2 h3
        rw [hk0] at h1
        simp only [List.length_take] at h3; omega
      · rw [pairsWithin_iff_nth]
        intro i h1 h2 h3
        rw [hk0] at h2
        simp only [List.length_drop] at h3 h2; omega
    · intro hk
      obtain ⟨h2, -⟩ := hc hk
      constructor
      · apply contigOK_short; simp; omega
      · apply contigOK_short; simp; omega
  obtain ⟨found, k', st, ind', q1, e1, e2, e3, e4, e5, e6, e7, e8, e9, e10⟩ :=
    searchLoop_spec (σ := Stack × Stack) ss c.angles
      (fun k s => if k % 2 = 0 then nth s.2 0 else nth s.1 (s.1.length - 1))
      (fun k s a => if k % 2 = 0 then testPly c a (nth s.2 0) ((a :: s.2).take (2 * c.nContig))
        else testPly c a (nth s.1 (s.1.length - 1)) (lastK (s.1 ++ [a]) (2 * c.nContig)))
      (fun k s a => if k % 2 = 0 then (s.1, a :: s.2) else (s.1 ++ [a], s.2))
      (fun s => s.1 ++ s.2)
      (fun a => PliesInRange ss q → -90 ≤ a ∧ a ≤ 90)
      (fun k s => OutAsymInv c attr ss (PliesInRange ss q) k s)
      (fun k s a => by
        split
        · exact testPly_total hc _ _ _
        · exact testPly_total hc _ _ _)
      (fun k s a => by
        split
        · exact List.perm_middle
        · show ((s.1 ++ [a]) ++ s.2).Perm _
          rw [List.append_assoc]
          exact List.perm_middle)
      (fun k s a hI hP ht => hI.step hc hP ht)
      ((outsideOrder ss.length (s0 - 1)).length - nD1 - 2) 0 (ss.take s0, ss.drop (ss.length - s0))
      ((outsideOrder ss.length (s0 - 1)).drop 2) q hinit
      (by
        intro a ha H
        refine mem_known_range H ?_ ha
        intro i hi
        rw [hind.mem_iff, List.mem_range'_1] at hi; omega)
      (fun a ha H => H.2 a ha)
  obtain ⟨top, bottom⟩ := st
  rw [missing_perm hind] at e4
  rw [hind.length_eq, List.length_range'] at e6
  rw [hindl] at e8 e9
  have e3' := e3.trans (List.Perm.append_right q (List.Perm.append_left _ (known_perm (ss := ss) hind)))
  simp only at e3'
  obtain ⟨rem, q2, f1, f2, f3, f4, -⟩ := fillPlies_spec ss ind' q1 (by omega)
  have htop : top.length = s0 + k' / 2 := by rw [← hk0]; exact e2.top
  have hbot : bottom.length = s0 + (k' + 1) / 2 := by rw [← hk0]; exact e2.bot
  have hq2 : q2.length + ss.count 666 = q.length := by omega
  have hcontent : (top ++ rem ++ bottom ++ q2).Perm (ss.filter (fun x => decide (x ≠ 666)) ++ q) := by
    rw [hfil]
    have g1 : (top ++ rem ++ bottom ++ q2).Perm (top ++ bottom ++ known ss ind' ++ q1) := by
      simp only [List.append_assoc]
      refine List.Perm.append_left _ ?_
      refine (List.perm_append_comm_assoc _ _ _).trans ?_
      exact List.Perm.append_left _ f3
    refine (g1.trans e3').trans ?_
    refine List.Perm.append_right _ ?_
    simp only [List.append_assoc]
    exact List.Perm.append_left _ List.perm_append_comm
  have hres : ∀ r : Stack, r.Perm rem →
      (top ++ r ++ bottom).length = ss.length ∧ ss.take s0 <+: top ++ r ++ bottom ∧
      ss.drop (ss.length - s0) <:+ top ++ r ++ bottom ∧
      (top ++ r ++ bottom ++ q2).Perm (ss.filter (fun x => decide (x ≠ 666)) ++ q) := by
    intro r hr
    refine ⟨?_, ?_, ?_, ?_⟩
    · have := hr.length_eq
      simp only [List.length_append]
      omega
    · have := e2.pre
      rw [hk0] at this
      exact prefix_append_of (prefix_append_of this)
    · have := e2.suf
      rw [hk0] at this
      exact this.trans (List.suffix_append _ _)
    · exact (((hr.append_left _).append_right _).append_right _).trans hcontent
  have hs0 : (if twoProtected c attr = true then 2 else 1) = s0 := by rw [← hk0]; rfl
  have hred : repairOutsideAsym c attr nD1 ss q =
      (if found = false then .ok (top ++ rem ++ bottom, false, q2)
      else if bottom.length + top.length < ss.length - nD1 then .error (.exc "This should not happen anymore")
      else do
        let best ← bestPerm rem (outsideAsymTest c attr top bottom rem.length)
        match best with
        | none => .ok (top ++ rem ++ bottom, false, q2)
        | some p =>
          let res := top ++ permute rem p ++ bottom
          if res.length ≠ ss.length then .error (.exc "This should not happen") else .ok (res, true, q2)) := by
    unfold repairOutsideAsym
    dsimp only
    rw [hs0, if_neg (by omega), e1]
    simp only [bind, Except.bind, f1]
    rfl
  rw [hred]
  have fail : ∃ res b q', (.ok (top ++ rem ++ bottom, false, q2) : Py (Stack × Bool × List Int)) =
      .ok (res, b, q') ∧
      res.length = ss.length ∧ ss.take s0 <+: res ∧
      ss.drop (ss.length - s0) <:+ res ∧
      (res ++ q').Perm (ss.filter (fun x => decide (x ≠ 666)) ++ q) ∧
      q'.length + ss.count 666 = q.length ∧
      (b = true → PliesInRange ss q → (∃ r, attr = .rule r) → 1 ≤ nD1 → c.diso = true →
        Spec.PairsWithin c.deltaAngle res (s0 - 1) (res.length - 1 - (s0 - 1))) ∧
      (b = true → c.contig = true → (∃ r, attr = .rule r) → c.nContig ≤ nD1 →
        2 * s0 < ss.length → Spec.ContigOK c.nContig res) := by
    obtain ⟨g1, g2, g3, g4⟩ := hres rem (.refl _)
    exact ⟨_, false, q2, rfl, g1, g2, g3, g4, hq2, by simp, by simp⟩
  split
  · exact fail
  · rename_i hf
    have hf : found = true := by simpa using hf
    have hk := e9 hf
    rw [if_neg (by omega)]
    obtain ⟨r, b1, b2, b3⟩ := C30_best_permutation rem (outsideAsymTest c attr top bottom rem.length)
      (outsideAsymTest_total hc attr top bottom rem.length)
    rw [b1]
    cases r with
    | none => exact fail
    | some p =>
      obtain ⟨c1, c2, -⟩ := b3 p rfl
      have hpp := permute_perm rem p c1
      have hgl : (permute rem p).length = rem.length := hpp.length_eq
      obtain ⟨g1, g2, g3, g4⟩ := hres (permute rem p) hpp
      have hfin : ∀ (hr : ∃ r, attr = .rule r) (hkD : k' = 0 ∨ 1 ≤ rem.length), _ := fun hr hkD =>
        outsideAsym_final (H := PliesInRange ss q) hc
        (D := rem.length) (g := permute rem p) e2 hgl
        (by
          intro hH a ha
          have h1 : a ∈ top ++ rem ++ bottom ++ q2 := by simp [hpp.mem_iff.1 ha]
          rw [hcontent.mem_iff] at h1
          rcases List.mem_append.1 h1 with h1 | h1
          · obtain ⟨h2, h3⟩ := List.mem_filter.1 h1
            exact hH.1 a h2 (of_decide_eq_true h3)
          · exact hH.2 a h1) hr hkD c2
      rw [hk0] at hfin
      refine ⟨_, true, q2, ?_, g1, g2, g3, g4, hq2, ?_, ?_⟩
      · show (if _ then _ else _) = _
        rw [if_neg (by simpa using g1)]
      · intro _ H1 hr hn hd
        exact (hfin hr (by omega)).1 H1 hd
      · intro _ hk' hr h1 h2
        obtain ⟨g2, -⟩ := hc hk'
        exact (hfin hr (by omega)).2 hk' (by omega)

end Bella
