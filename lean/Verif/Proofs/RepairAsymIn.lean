import Verif.Proofs.RepairAsym
import Mathlib.Data.List.Sort
/-
The repair of asymmetric laminates from the inside.
-/
namespace Bella

/-- Invariant of the plies placed by the repair of an asymmetric laminate from the inside. -/
structure InAsymInv (c : Cons) (H : Prop) (k : Nat) (s : Stack) : Prop where
  len : s.length = k + 1
  rng : H → InRange s
  diso : H → c.diso = true → Spec.DisoOK c.deltaAngle s
  contig : c.contig = true → Spec.ContigOK c.nContig s

theorem InAsymInv.step {c : Cons} (hc : ContigCons c) {H : Prop} {k : Nat} {s : Stack} {a : Int}
    (h : InAsymInv c H k s) (hP : H → -90 ≤ a ∧ a ≤ 90)
    (ht : (if k % 2 = 0 then testPly c a (nth s 0) ((a :: s).take (2 * c.nContig))
        else testPly c a (nth s (s.length - 1)) (lastK (s ++ [a]) (2 * c.nContig))) = .ok true) :
    InAsymInv c H (k + 1) (if k % 2 = 0 then a :: s else s ++ [a]) := by
  have hs : s ≠ [] := List.length_pos_iff.1 (by rw [h.len]; omega)
  by_cases hk : k % 2 = 0
  · rw [if_pos hk] at ht ⊢
    obtain ⟨h1, h2⟩ := testPly_true hc ht
    refine ⟨by rw [List.length_cons, h.len], ?_, ?_, ?_⟩
    · intro hH x hx
      rcases List.mem_cons.1 hx with rfl | hx
      · exact hP hH
      · exact h.rng hH x hx
    · intro hH hd
      apply disoOK_cons (h.diso hH hd)
      have := h1 hd
      rwa [isDiso_iff _ _ _ (hP hH) ((h.rng hH).nth _)] at this
    · intro hk'
      obtain ⟨g2, -⟩ := hc hk'
      exact contigOK_cons_window g2 (h.contig hk') (h2 hk')
  · rw [if_neg hk] at ht ⊢
    obtain ⟨h1, h2⟩ := testPly_true hc ht
    refine ⟨by rw [List.length_append, h.len]; rfl, ?_, ?_, ?_⟩
    · intro hH x hx
      rcases List.mem_append.1 hx with hx | hx
      · exact h.rng hH x hx
      · rw [List.mem_singleton.1 hx]; exact hP hH
    · intro hH hd
      refine disoOK_snoc hs (h.diso hH hd) ?_
      have := h1 hd
      rw [isDiso_iff _ _ _ (hP hH) ((h.rng hH).nth _)] at this
      exact withinAngle_comm this
    · intro hk'
      obtain ⟨g2, -⟩ := hc hk'
      exact contigOK_snoc_window g2 (h.contig hk') (h2 hk')

theorem placeAlternately_perm : ∀ (l : List Int) (k : Nat) (s : Stack), (placeAlternately k l s).Perm (l ++ s) := by
  intro l
  induction l with
  | nil => intro k s; exact .refl _
  | cons a l ih =>
    intro k s
    rw [placeAlternately]
    refine (ih (k + 1) _).trans ?_
    split
    · exact List.perm_middle
    · rw [← List.append_assoc]
      exact (List.perm_append_singleton a (l ++ s))

/-- A laminate is fine if its middle, its first and its last plies are. -/
theorem contigOK_three {n K1 K2 : Nat} (A s B : Stack) (hs : Spec.ContigOK n s)
    (h1 : Spec.ContigOK n ((A ++ s ++ B).take K1))
    (h2 : Spec.ContigOK n ((A ++ s ++ B).drop ((A ++ s ++ B).length - K2)))
    (hA : A.length + n ≤ K1) (hB : B.length + n ≤ K2) : Spec.ContigOK n (A ++ s ++ B) := by
  have hN : (A ++ s ++ B).length = A.length + s.length + B.length := by simp; omega
  apply contigOK_of_cover
  intro i hi
  generalize hL : A ++ s ++ B = L at *
  by_cases c1 : i + n < K1
  · refine ⟨[], L.take K1, L.drop K1, by simp, by simp, ?_, h1⟩
    simp; omega
  by_cases c2 : L.length - K2 ≤ i
  · refine ⟨L.take (L.length - K2), L.drop (L.length - K2), [], by simp, ?_, ?_, h2⟩
    · simp; omega
    · simp; omega
  · exact ⟨A, s, B, hL.symm, by omega, by omega, hs⟩

theorem disoOK_three {d : Int} {K1 K2 : Nat} (A s B : Stack) (hs : Spec.DisoOK d s)
    (h1 : Spec.DisoOK d ((A ++ s ++ B).take K1))
    (h2 : Spec.DisoOK d ((A ++ s ++ B).drop ((A ++ s ++ B).length - K2)))
    (hA : A.length + 1 ≤ K1) (hB : B.length + 1 ≤ K2) : Spec.DisoOK d (A ++ s ++ B) := by
  have hN : (A ++ s ++ B).length = A.length + s.length + B.length := by simp; omega
  rw [disoOK_iff_pairs]
  apply pairsWithin_of_cover
  intro i _ _ hi
  generalize hL : A ++ s ++ B = L at *
  by_cases c1 : i + 1 < K1
  · refine ⟨[], L.take K1, L.drop K1, by simp, by simp, by simp; omega, ?_⟩
    apply disoOK_nth h1
    simp; omega
  by_cases c2 : L.length - K2 ≤ i
  · refine ⟨L.take (L.length - K2), L.drop (L.length - K2), [], by simp, ?_, ?_, ?_⟩
    · simp; omega
    · simp; omega
    · apply disoOK_nth h2
      simp; omega
  · refine ⟨A, s, B, hL.symm, by omega, by omega, ?_⟩
    apply disoOK_nth hs
    omega

theorem insideAsymTest_total {c : Cons} (hc : ContigCons c) (top stack bottom : Stack) (D : Nat)
    (g : Stack) : ∃ b, insideAsymTest c top stack bottom D g = .ok b := by
  unfold insideAsymTest
  dsimp only
  generalize (if c.damTol = true then
    lastK top 1 ++ g.take (D / 2) ++ stack ++ g.drop (D / 2) ++ bottom.take 1
    else g.take (D / 2) ++ stack ++ g.drop (D / 2)) = t
  obtain ⟨b1, hb1⟩ := testPart_total hc (t.take (3 + D + c.nContig))
  rw [hb1]
  simp only [bind, Except.bind]
  split
  · exact ⟨_, rfl⟩
  · split
    · exact testPart_total hc _
    · exact ⟨_, rfl⟩

/-- The part of the laminate that is tested passes the tests if its size is not the one for which the
code forgets the last ply. -/
theorem insideAsymTest_true {c : Cons} (hc : ContigCons c) {top stack bottom g : Stack} {D : Nat}
    (h : insideAsymTest c top stack bottom D g = .ok true) (A B : Stack)
    (hAB : (if c.damTol = true then lastK top 1 ++ g.take (D / 2) ++ stack ++ g.drop (D / 2) ++ bottom.take 1
      else g.take (D / 2) ++ stack ++ g.drop (D / 2)) = A ++ stack ++ B)
    (hA : A.length ≤ D / 2 + 1) (hB : B.length ≤ D - D / 2 + 1)
    (hsize : (A ++ stack ++ B).length ≠ 4 + D + c.nContig) :
    (c.diso = true → InRange (A ++ stack ++ B) → Spec.DisoOK c.deltaAngle stack →
      Spec.DisoOK c.deltaAngle (A ++ stack ++ B)) ∧
    (c.contig = true → Spec.ContigOK c.nContig stack → Spec.ContigOK c.nContig (A ++ stack ++ B)) := by
  unfold insideAsymTest at h
  dsimp only at h
  rw [hAB] at h
  obtain ⟨b1, hb1⟩ := testPart_total hc ((A ++ stack ++ B).take (3 + D + c.nContig))
  rw [hb1] at h
  simp only [bind, Except.bind] at h
  split at h
  · cases h
  · rename_i hb
    have hb : b1 = true := by simpa using hb
    subst hb
    obtain ⟨d1, k1⟩ := testPart_true hc hb1
    split at h
    · rename_i hpos
      obtain ⟨d2, k2⟩ := testPart_true hc h
      rw [show (A ++ stack ++ B).length - 4 - D - c.nContig =
        (A ++ stack ++ B).length - (4 + D + c.nContig) by omega] at d2 k2
      constructor
      · intro hd hr hs
        exact disoOK_three A stack B hs (d1 hd (fun a ha => hr a (List.mem_of_mem_take ha)))
          (d2 hd (fun a ha => hr a (List.mem_of_mem_drop ha))) (by omega) (by omega)
      · intro hk hs
        exact contigOK_three A stack B hs (k1 hk) (k2 hk) (by omega) (by omega)
    · rw [List.take_of_length_le (by omega)] at d1 k1
      exact ⟨fun hd hr _ => d1 hd hr, fun hk _ => k1 hk⟩

/-- The plies the repair from the inside may move, with the central one first. -/
theorem insideOrder_perm (k0 m : Nat) (hm : 1 ≤ m) :
    ∃ rest, interleaveInd (List.range' (k0 + m / 2) (m - m / 2)) (List.range' k0 (m / 2)).reverse =
        (k0 + m / 2) :: rest ∧ ((k0 + m / 2) :: rest).Perm (List.range' k0 m) := by
  have hp := interleaveInd_perm (List.range' (k0 + m / 2) (m - m / 2)) (List.range' k0 (m / 2)).reverse
  have hp2 : (interleaveInd (List.range' (k0 + m / 2) (m - m / 2)) (List.range' k0 (m / 2)).reverse).Perm
      (List.range' k0 m) := by
    refine hp.trans ((List.Perm.append_left _ (List.reverse_perm _)).trans ?_)
    refine List.perm_append_comm.trans ?_
    rw [List.range'_append_1, show m / 2 + (m - m / 2) = m by omega]
  have e : ∃ rest, interleaveInd (List.range' (k0 + m / 2) (m - m / 2)) (List.range' k0 (m / 2)).reverse =
        (k0 + m / 2) :: rest := by
    rw [show m - m / 2 = (m - m / 2 - 1) + 1 by omega, List.range'_succ]
    generalize (List.range' k0 (m / 2)).reverse = l
    cases l with
    | nil => exact ⟨_, rfl⟩
    | cons y l => exact ⟨_, rfl⟩
  obtain ⟨rest, he⟩ := e
  exact ⟨rest, he, he ▸ hp2⟩

/-- `repair_diso_contig_from_inside_asym`. -/
theorem repairInsideAsym_spec {c : Cons} (hc : ContigCons c) (attr : DamTolAttr) (nD1 : Nat) (ss : Stack)
    (q : List Int) (hlen : 2 * nKeptIn c attr < ss.length)
    (hout : ∀ i, i < nKeptIn c attr → nth ss i ≠ 666 ∧ nth ss (ss.length - 1 - i) ≠ 666)
    (hmid : nth ss (ss.length / 2) ≠ 666)
    (hq : ss.count 666 ≤ q.length) :
    ∃ res b q', repairInsideAsym c attr nD1 ss q = .ok (res, b, q') ∧
      res.length = ss.length ∧ ss.take (nKeptIn c attr) <+: res ∧
      ss.drop (ss.length - nKeptIn c attr) <:+ res ∧
      (res ++ q').Perm (ss.filter (fun x => decide (x ≠ 666)) ++ q) ∧
      q'.length + ss.count 666 = q.length ∧
      (b = true → PliesInRange ss q → c.diso = true →
        ss.length - 2 * (nKeptOut c attr - 1) ≠ 4 + min nD1 (ss.length - 2 * nKeptIn c attr - 1) + c.nContig →
        Spec.PairsWithin c.deltaAngle res (nKeptOut c attr - 1) (res.length - 1 - (nKeptOut c attr - 1))) ∧
      (b = true → c.contig = true →
        ss.length - 2 * (nKeptOut c attr - 1) ≠ 4 + min nD1 (ss.length - 2 * nKeptIn c attr - 1) + c.nContig →
        Spec.ContigOK c.nContig
          ((res.drop (nKeptOut c attr - 1)).take (res.length - 2 * (nKeptOut c attr - 1)))) := by
  have hpred := nKeptIn_pred c attr
  have hkle := nKeptIn_le c attr
  have hk2 := (nKeptOut_pos c attr).2
  generalize hk0 : nKeptIn c attr = k0 at *
  have hl2 : k0 ≤ ss.length := by omega
  obtain ⟨rest, hrest, hperm⟩ := insideOrder_perm k0 (ss.length - 2 * k0) (by omega)
  have hcen : k0 + (ss.length - 2 * k0) / 2 = ss.length / 2 := by omega
  have hsplit : ss = ss.take k0 ++ (ss.drop k0).take (ss.length - 2 * k0) ++ ss.drop (ss.length - k0) := by
    rw [← take_split, show k0 + (ss.length - 2 * k0) = ss.length - k0 by omega, List.take_append_drop]
  have hbk : ∀ a ∈ ss.drop (ss.length - k0), a ≠ 666 := by
    intro a ha
    obtain ⟨i, hi, rfl⟩ := List.getElem_of_mem ha
    simp only [List.length_drop] at hi
    rw [List.getElem_drop]
    have := (hout (k0 - 1 - i) (by omega)).2
    rw [nth_eq_getElem _ _ (by omega)] at this
    intro hh
    apply this
    rw [← hh]
    congr 1; omega
  have hknown : (known ss (List.range' k0 (ss.length - 2 * k0))).Perm (nth ss (ss.length / 2) :: known ss rest) := by
    have := known_perm (ss := ss) hperm
    rw [hcen, known_cons_of_ne hmid] at this
    exact this.symm
  have hmiss : missing ss (List.range' k0 (ss.length - 2 * k0)) = missing ss rest := by
    have := missing_perm (ss := ss) hperm
    rw [hcen, missing_cons_of_ne hmid] at this
    exact this.symm
  have hfil : (ss.filter (fun x => decide (x ≠ 666))).Perm (ss.take k0 ++
      (nth ss (ss.length / 2) :: known ss rest) ++ ss.drop (ss.length - k0)) := by
    have e : ss.filter (fun x => decide (x ≠ 666)) = ss.take k0 ++
        known ss (List.range' k0 (ss.length - 2 * k0)) ++ ss.drop (ss.length - k0) := by
      conv_lhs => rw [hsplit, List.filter_append, List.filter_append]
      rw [known_range' _ _ _ (by omega), filter_take_known hl2 (fun i hi => (hout i hi).1)]
      congr 1
      rw [List.filter_eq_self]
      intro a ha
      exact decide_eq_true (hbk a ha)
    rw [e]
    exact (hknown.append_left _).append_right _
  have hcnt : ss.count 666 = missing ss rest := by
    rw [← hmiss]
    conv_lhs => rw [hsplit, List.count_append, List.count_append]
    rw [missing_range' _ _ _ (by omega), count_take_known hl2 (fun i hi => (hout i hi).1)]
    have : (ss.drop (ss.length - k0)).count 666 = 0 := by
      rw [List.count_eq_zero]
      intro hm; exact hbk _ hm rfl
    omega
  have hrestl : rest.length + 1 = ss.length - 2 * k0 := by
    have := hperm.length_eq
    simpa using this
  have hinit : InAsymInv c (PliesInRange ss q) 0 [nth ss (ss.length / 2)] := by
    refine ⟨rfl, ?_, ?_, ?_⟩
    · intro H a ha
      rw [List.mem_singleton.1 ha]
      exact H.1 _ (mem_nth (by omega)) hmid
    · intro _ _
      rw [disoOK_iff_nth]
      intro i hi; simp at hi
    · intro hk
      obtain ⟨h2, -⟩ := hc hk
      apply contigOK_short; simp; omega
  obtain ⟨found, k', stack, ind', q1, e1, e2, e3, e4, e5, e6, e7, e8, e9, e10⟩ :=
    searchLoop_spec (σ := Stack) ss c.angles
      (fun k s => if k % 2 = 0 then nth s 0 else nth s (s.length - 1))
      (fun k s a => if k % 2 = 0 then testPly c a (nth s 0) ((a :: s).take (2 * c.nContig))
        else testPly c a (nth s (s.length - 1)) (lastK (s ++ [a]) (2 * c.nContig)))
      (fun k s a => if k % 2 = 0 then a :: s else s ++ [a])
      id
      (fun a => PliesInRange ss q → -90 ≤ a ∧ a ≤ 90)
      (fun k s => InAsymInv c (PliesInRange ss q) k s)
      (fun k s a => by
        split
        · exact testPly_total hc _ _ _
        · exact testPly_total hc _ _ _)
      (fun k s a => by
        split
        · exact .refl _
        · exact List.perm_append_singleton a s)
      (fun k s a hI hP ht => hI.step hc hP ht)
      (rest.length + 1 - nD1 - 1) 0 [nth ss (ss.length / 2)] rest q hinit
      (by
        intro a ha H
        refine mem_known_range H ?_ ha
        intro i hi
        have := hperm.mem_iff.1 (List.mem_cons_of_mem _ hi)
        rw [List.mem_range'_1] at this; omega)
      (fun a ha H => H.2 a ha)
  simp only [id] at e3
  have hslen := e2.len
  obtain ⟨rem, q2, f1, f2, f3, f4, f5⟩ := fillPlies_spec ss ind' q1 (by omega)
  have hsort : (ind'.insertionSort (· ≤ ·)).Perm ind' := List.perm_insertionSort _ _
  obtain ⟨rem', q2', f1', f2', f3', f4', f5'⟩ := fillPlies_spec ss (ind'.insertionSort (· ≤ ·)) q1
    (by rw [missing_perm hsort]; omega)
  rw [missing_perm hsort] at f4' f5'
  rw [hsort.length_eq] at f2'
  have hqq : q2' = q2 := by rw [f5', f5]
  subst hqq
  have hdtl : (ss.take k0).length = k0 := by simp; omega
  have hdbl : (ss.drop (ss.length - k0)).length = k0 := by simp; omega
  have hq2 : q2'.length + ss.count 666 = q.length := by omega
  -- all laminates built contain the same plies
  have hcontent : ∀ w : Stack, (w ++ q2').Perm (stack ++ (known ss ind' ++ q1)) →
      (ss.take k0 ++ w ++ ss.drop (ss.length - k0) ++ q2').Perm
        (ss.filter (fun x => decide (x ≠ 666)) ++ q) := by
    intro w hw
    have g1 : (ss.take k0 ++ w ++ ss.drop (ss.length - k0) ++ q2').Perm
        (ss.take k0 ++ ss.drop (ss.length - k0) ++ (w ++ q2')) := by
      simp only [List.append_assoc]
      exact List.Perm.append_left _ (List.perm_append_comm_assoc _ _ _)
    refine g1.trans ?_
    have g2 := (hw.trans (by rw [← List.append_assoc])).trans e3
    refine (List.Perm.append_left _ g2).trans ?_
    refine List.Perm.trans ?_ (List.Perm.append_right q hfil).symm
    simp only [List.append_assoc, List.cons_append]
    refine List.Perm.append_left _ ?_
    have := List.perm_append_comm_assoc (ss.drop (ss.length - k0)) (nth ss (ss.length / 2) :: known ss rest) q
    simpa using this
  have hprop : ∀ w : Stack, w.length + 2 * k0 = ss.length →
      (ss.take k0 ++ w ++ ss.drop (ss.length - k0)).length = ss.length ∧
      ss.take k0 <+: ss.take k0 ++ w ++ ss.drop (ss.length - k0) ∧
      ss.drop (ss.length - k0) <:+ ss.take k0 ++ w ++ ss.drop (ss.length - k0) := by
    intro w hw
    refine ⟨?_, prefix_append_of (List.prefix_append _ _), List.suffix_append _ _⟩
    rw [List.length_append, List.length_append, hdtl, hdbl]; omega
  have hremc : ∀ (r : List Int), r = rem ∨ r = rem' → ∀ w : Stack, w.Perm (r ++ stack) →
      (w ++ q2').Perm (stack ++ (known ss ind' ++ q1)) := by
    intro r hr w hw
    have hr2 : (r ++ q2').Perm (known ss ind' ++ q1) := by
      rcases hr with rfl | rfl
      · exact f3
      · exact f3'.trans ((known_perm hsort).append_right _)
    refine (hw.append_right _).trans ?_
    rw [List.append_assoc]
    exact (List.perm_append_comm_assoc _ _ _).trans (hr2.append_left _)
  have hkdef : (if c.damTol = true then (if twoProtected c attr = true then 2 else 1) else 0) = k0 := by
    rw [← hk0]; rfl
  have hred : repairInsideAsym c attr nD1 ss q =
      (if found = false then
        (if (ss.take k0 ++ placeAlternately (k' + 1) rem stack ++ ss.drop (ss.length - k0)).length ≠ ss.length then
          .error (.exc "This should not happen")
        else .ok (ss.take k0 ++ placeAlternately (k' + 1) rem stack ++ ss.drop (ss.length - k0), false, q2'))
      else if (ss.drop (ss.length - k0)).length + (ss.take k0).length + stack.length < ss.length - nD1 then
        .error (.exc "This should not happen anymore")
      else do
        let best ← bestPerm rem' (insideAsymTest c (ss.take k0) stack (ss.drop (ss.length - k0)) rem'.length)
        match best with
        | none =>
          (if (ss.take k0 ++ placeAlternately k' rem stack ++ ss.drop (ss.length - k0)).length ≠ ss.length then
            .error (.exc "This should not happen")
          else .ok (ss.take k0 ++ placeAlternately k' rem stack ++ ss.drop (ss.length - k0), false, q2'))
        | some p =>
          let g := permute rem' p
          let res := ss.take k0 ++ g.take (rem'.length / 2) ++ stack ++ g.drop (rem'.length / 2) ++
            ss.drop (ss.length - k0)
          if res.length ≠ ss.length then .error (.exc "This should not happen") else .ok (res, true, q2')) := by
    unfold repairInsideAsym
    dsimp only
    rw [hkdef, if_neg (by omega), hrest, hcen, List.drop_succ_cons, List.drop_zero, List.length_cons, e1]
    simp only [bind, Except.bind, f1, f1']
    rfl
  rw [hred]
  have fail : ∀ w : Stack, w.Perm (rem ++ stack) →
      ∃ res b q', (if (ss.take k0 ++ w ++ ss.drop (ss.length - k0)).length ≠ ss.length then
          .error (.exc "This should not happen")
        else .ok (ss.take k0 ++ w ++ ss.drop (ss.length - k0), false, q2') : Py (Stack × Bool × List Int)) =
        .ok (res, b, q') ∧
      res.length = ss.length ∧ ss.take k0 <+: res ∧
      ss.drop (ss.length - k0) <:+ res ∧
      (res ++ q').Perm (ss.filter (fun x => decide (x ≠ 666)) ++ q) ∧
      q'.length + ss.count 666 = q.length ∧
      (b = true → PliesInRange ss q → c.diso = true →
        ss.length - 2 * (nKeptOut c attr - 1) ≠ 4 + min nD1 (ss.length - 2 * k0 - 1) + c.nContig →
        Spec.PairsWithin c.deltaAngle res (nKeptOut c attr - 1) (res.length - 1 - (nKeptOut c attr - 1))) ∧
      (b = true → c.contig = true →
        ss.length - 2 * (nKeptOut c attr - 1) ≠ 4 + min nD1 (ss.length - 2 * k0 - 1) + c.nContig →
        Spec.ContigOK c.nContig
          ((res.drop (nKeptOut c attr - 1)).take (res.length - 2 * (nKeptOut c attr - 1)))) := by
    intro w hw
    have hwl := hw.length_eq
    rw [List.length_append] at hwl
    obtain ⟨g1, g2, g3⟩ := hprop w (by omega)
    rw [if_neg (by simpa using g1)]
    exact ⟨_, false, q2', rfl, g1, g2, g3, hcontent w (hremc rem (Or.inl rfl) w hw), hq2, by simp, by simp⟩
  split
  · exact fail _ (placeAlternately_perm _ _ _)
  · rename_i hf
    have hf : found = true := by simpa using hf
    have hk := e9 hf
    rw [if_neg (by rw [hdtl, hdbl]; omega)]
    obtain ⟨r, b1, b2, b3⟩ := C30_best_permutation rem'
      (insideAsymTest c (ss.take k0) stack (ss.drop (ss.length - k0)) rem'.length)
      (insideAsymTest_total hc _ _ _ rem'.length)
    rw [b1]
    cases r with
    | none => exact fail _ (placeAlternately_perm _ _ _)
    | some p =>
      obtain ⟨c1, c2, -⟩ := b3 p rfl
      have hpp := permute_perm rem' p c1
      have hgl : (permute rem' p).length = rem'.length := hpp.length_eq
      simp only [bind, Except.bind]
      generalize permute rem' p = g at *
      have hwp : (g.take (rem'.length / 2) ++ stack ++ g.drop (rem'.length / 2)).Perm (rem' ++ stack) := by
        have : (g.take (rem'.length / 2) ++ stack ++ g.drop (rem'.length / 2)).Perm
            (g.take (rem'.length / 2) ++ g.drop (rem'.length / 2) ++ stack) := by
          simp only [List.append_assoc]
          exact List.Perm.append_left _ List.perm_append_comm
        refine this.trans ?_
        rw [List.take_append_drop]
        exact hpp.append_right _
      have hwl : (g.take (rem'.length / 2) ++ stack ++ g.drop (rem'.length / 2)).length =
          rem'.length + stack.length := by rw [hwp.length_eq, List.length_append]
      obtain ⟨g1, g2, g3⟩ := hprop _ (show
        (g.take (rem'.length / 2) ++ stack ++ g.drop (rem'.length / 2)).length + 2 * k0 = ss.length by omega)
      have hcont := hcontent _ (hremc rem' (Or.inr rfl) _ hwp)
      have hreseq : ss.take k0 ++ g.take (rem'.length / 2) ++ stack ++ g.drop (rem'.length / 2) ++
            ss.drop (ss.length - k0) =
          ss.take k0 ++ (g.take (rem'.length / 2) ++ stack ++ g.drop (rem'.length / 2)) ++
            ss.drop (ss.length - k0) := by simp
      -- the part tested
      obtain ⟨A, B, hA1, hB1, hAB, hresAB, hlA, hlB⟩ : ∃ A B : Stack,
          A.length ≤ rem'.length / 2 + 1 ∧ B.length ≤ rem'.length - rem'.length / 2 + 1 ∧
          (if c.damTol = true then lastK (ss.take k0) 1 ++ g.take (rem'.length / 2) ++ stack ++
            g.drop (rem'.length / 2) ++ (ss.drop (ss.length - k0)).take 1
            else g.take (rem'.length / 2) ++ stack ++ g.drop (rem'.length / 2)) = A ++ stack ++ B ∧
          ss.take k0 ++ (g.take (rem'.length / 2) ++ stack ++ g.drop (rem'.length / 2)) ++
            ss.drop (ss.length - k0) =
            ss.take (k0 - 1) ++ (A ++ stack ++ B) ++ (ss.drop (ss.length - k0)).drop 1 ∧
          (ss.take (k0 - 1)).length = k0 - 1 ∧ ((ss.drop (ss.length - k0)).drop 1).length = k0 - 1 := by
        by_cases hdt : c.damTol = true
        · have hpos := nKeptIn_pos (attr := attr) hdt
          rw [hk0] at hpos
          refine ⟨lastK (ss.take k0) 1 ++ g.take (rem'.length / 2),
            g.drop (rem'.length / 2) ++ (ss.drop (ss.length - k0)).take 1, ?_, ?_, ?_, ?_, ?_, ?_⟩
          · unfold lastK
            rw [if_neg (by omega)]
            simp; omega
          · simp; omega
          · rw [if_pos hdt]; simp
          · have e : ss.take k0 = ss.take (k0 - 1) ++ lastK (ss.take k0) 1 := by
              unfold lastK
              rw [if_neg (by omega), hdtl]
              conv_lhs => rw [← List.take_append_drop (k0 - 1) (ss.take k0), List.take_take,
                Nat.min_eq_left (by omega)]
            conv_lhs => rw [e, ← List.take_append_drop 1 (ss.drop (ss.length - k0))]
            simp only [List.append_assoc]
          · simp; omega
          · simp; omega
        · have hz : k0 = 0 := by
            rw [← hk0]; exact nKeptIn_zero (by simpa using hdt)
          refine ⟨g.take (rem'.length / 2), g.drop (rem'.length / 2), by rw [List.length_take]; omega, by rw [List.length_drop]; omega,
            by rw [if_neg hdt], ?_, by simp [hz], ?_⟩
          · subst hz; simp
          · subst hz; simp
      have hN : (A ++ stack ++ B).length = ss.length - 2 * (nKeptOut c attr - 1) := by
        have := congrArg List.length hresAB
        rw [g1, List.length_append, List.length_append, hlA, hlB] at this
        omega
      have hD : rem'.length = min nD1 (ss.length - 2 * k0 - 1) := by omega
      have hfin := fun hs => insideAsymTest_true hc c2 A B hAB hA1 hB1 hs
      rw [hN, hD] at hfin
      refine ⟨_, true, q2', ?_, g1, g2, g3, hcont, hq2, ?_, ?_⟩
      · rw [hreseq, if_neg (by simpa using g1)]
      · intro _ H hd hs
        have hrange : InRange (A ++ stack ++ B) := by
          intro a ha
          have h1 : a ∈ ss.filter (fun x => decide (x ≠ 666)) ++ q := by
            rw [← hcont.mem_iff, hresAB]
            exact List.mem_append_left _ (List.mem_append_left _ (List.mem_append_right _ ha))
          rcases List.mem_append.1 h1 with h1 | h1
          · obtain ⟨h2, h3⟩ := List.mem_filter.1 h1
            exact H.1 a h2 (of_decide_eq_true h3)
          · exact H.2 a h1
        have h4 := (hfin hs).1 hd hrange (e2.diso H hd)
        have h5 := pairsWithin_inner (ss.take (k0 - 1)) (A ++ stack ++ B) ((ss.drop (ss.length - k0)).drop 1) h4
        rw [← hresAB, hlA, hN] at h5
        rw [g1]
        rw [show ss.length - 1 - (nKeptOut c attr - 1) = k0 - 1 + (ss.length - 2 * (nKeptOut c attr - 1)) - 1 by
          omega, ← hpred]
        rw [hpred] at h5 ⊢; exact h5
      · intro _ hk' hs
        have h4 := (hfin hs).2 hk' (e2.contig hk')
        rw [g1, hresAB, ← hpred, List.append_assoc (ss.take (k0 - 1)), List.drop_left' hlA]
        rw [List.take_left' (by rw [hN, hpred])]
        exact h4

end Bella
