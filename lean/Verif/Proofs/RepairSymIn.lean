import Verif.Proofs.RepairSym
/-
The repair of symmetric laminates from the inside.
-/
namespace Bella

theorem contigOK_palindrome_window {n K : Nat} (t s : Stack) (hs : s.reverse = s) (h1 : Spec.ContigOK n s)
    (h2 : Spec.ContigOK n ((t ++ s ++ t.reverse).take K)) (hK : 2 * n + t.length ≤ K) :
    Spec.ContigOK n (t ++ s ++ t.reverse) := by
  have hrev : (t ++ s ++ t.reverse).reverse = t ++ s ++ t.reverse := by simp [hs]
  have hN : (t ++ s ++ t.reverse).length = 2 * t.length + s.length := by simp; omega
  apply contigOK_of_cover
  intro i hi
  generalize hL : t ++ s ++ t.reverse = L at *
  by_cases c1 : i + n < K
  · refine ⟨[], L.take K, L.drop K, by simp, by simp, ?_, h2⟩
    simp; omega
  by_cases c2 : L.length ≤ i + K
  · refine ⟨(L.drop K).reverse, (L.take K).reverse, [], ?_, ?_, ?_, contigOK_reverse h2⟩
    · rw [List.append_nil, ← List.reverse_append, List.take_append_drop, hrev]
    · simp; omega
    · simp; omega
  · exact ⟨t, s, t.reverse, hL.symm, by omega, by omega, h1⟩

theorem disoOK_palindrome_window {d : Int} {K : Nat} (t s : Stack) (hs : s.reverse = s) (h1 : Spec.DisoOK d s)
    (h2 : Spec.DisoOK d ((t ++ s ++ t.reverse).take K)) (hK : 1 + t.length ≤ K) :
    Spec.DisoOK d (t ++ s ++ t.reverse) := by
  have hrev : (t ++ s ++ t.reverse).reverse = t ++ s ++ t.reverse := by simp [hs]
  have hN : (t ++ s ++ t.reverse).length = 2 * t.length + s.length := by simp; omega
  rw [disoOK_iff_pairs]
  apply pairsWithin_of_cover
  intro i _ _ hi
  generalize hL : t ++ s ++ t.reverse = L at *
  by_cases c1 : i + 1 < K
  · refine ⟨[], L.take K, L.drop K, by simp, by simp, by simp; omega, ?_⟩
    apply disoOK_nth h2
    simp; omega
  by_cases c2 : L.length ≤ i + K
  · refine ⟨(L.drop K).reverse, (L.take K).reverse, [], ?_, ?_, ?_, ?_⟩
    · rw [List.append_nil, ← List.reverse_append, List.take_append_drop, hrev]
    · simp; omega
    · simp; omega
    · apply disoOK_nth (disoOK_reverse h2)
      simp; omega
  · refine ⟨t, s, t.reverse, hL.symm, by omega, by omega, ?_⟩
    apply disoOK_nth h1
    omega

/-- number of protected plies on each face kept by the repair from the inside -/
def nKeptIn (c : Cons) (attr : DamTolAttr) : Nat := if c.damTol then nKeptOut c attr else 0

theorem nKeptIn_le (c : Cons) (attr : DamTolAttr) : nKeptIn c attr ≤ nKeptOut c attr := by
  unfold nKeptIn; split <;> omega

theorem nKeptIn_pred (c : Cons) (attr : DamTolAttr) : nKeptIn c attr - 1 = nKeptOut c attr - 1 := by
  unfold nKeptIn nKeptOut twoProtected
  cases c.damTol <;> simp

theorem nKeptIn_pos {c : Cons} {attr : DamTolAttr} (h : c.damTol = true) : 1 ≤ nKeptIn c attr := by
  unfold nKeptIn; rw [if_pos h]; exact (nKeptOut_pos c attr).1

theorem nKeptIn_zero {c : Cons} {attr : DamTolAttr} (h : c.damTol = false) : nKeptIn c attr = 0 := by
  unfold nKeptIn; rw [if_neg (by simp [h])]

/-- Invariant of the plies placed by the repair of a symmetric laminate from the inside. -/
structure InSymInv (c : Cons) (ss : Stack) (H : Prop) (s : Stack) : Prop where
  pos : 1 ≤ s.length
  par : s.length % 2 = ss.length % 2
  sym : s.reverse = s
  mid : nth s (s.length / 2) = nth ss (ss.length / 2)
  rng : H → InRange s
  diso : H → c.diso = true → Spec.DisoOK c.deltaAngle s
  contig : c.contig = true → Spec.ContigOK c.nContig s

theorem InSymInv.both {c : Cons} (hc : ContigCons c) {ss : Stack} {H : Prop} {s : Stack} {a : Int}
    (h : InSymInv c ss H s) (hP : H → -90 ≤ a ∧ a ≤ 90)
    (ht : testPly c a (nth s 0) ((a :: (s ++ [a])).take (2 * c.nContig)) = .ok true) :
    InSymInv c ss H (a :: (s ++ [a])) := by
  obtain ⟨h1, h2⟩ := testPly_true hc ht
  have hs : s ≠ [] := List.length_pos_iff.1 h.pos
  have hlen : (a :: (s ++ [a])).length = s.length + 2 := by simp
  have hlast : nth s (s.length - 1) = nth s 0 := by
    have := nth_reverse s (s.length - 1) (by have := h.pos; omega)
    rw [h.sym, show s.length - 1 - (s.length - 1) = 0 by omega] at this
    exact this
  refine ⟨by simp, ?_, ?_, ?_, ?_, ?_, ?_⟩
  · rw [hlen, ← h.par]; omega
  · simp [h.sym]
  · rw [hlen, show (s.length + 2) / 2 = s.length / 2 + 1 by omega, ← h.mid]
    show nth (s ++ [a]) (s.length / 2) = _
    exact nth_left _ _ _ (by have := h.pos; omega)
  · intro hH x hx
    rcases List.mem_cons.1 hx with rfl | hx
    · exact hP hH
    rcases List.mem_append.1 hx with hx | hx
    · exact h.rng hH x hx
    · rw [List.mem_singleton.1 hx]; exact hP hH
  · intro hH hd
    have := h1 hd
    rw [isDiso_iff _ _ _ (hP hH) ((h.rng hH).nth _)] at this
    apply disoOK_cons
    · refine disoOK_snoc hs (h.diso hH hd) ?_
      rw [hlast]; exact withinAngle_comm this
    · rw [nth_left _ _ _ h.pos]; exact this
  · intro hk
    obtain ⟨g2, g6, -⟩ := hc hk
    have := contigOK_palindrome_window (n := c.nContig) (K := 2 * c.nContig) [a] s h.sym (h.contig hk)
    have h3 := h2 hk
    by_cases hw : s.length + 2 ≤ 2 * c.nContig
    · rw [List.take_of_length_le (by omega)] at h3; exact h3
    · -- the window is shorter than the laminate
      have e : (a :: (s ++ [a])).take (2 * c.nContig) = [a] ++ s.take (2 * c.nContig - 1) := by
        rw [show 2 * c.nContig = (2 * c.nContig - 1) + 1 by omega, List.take_succ_cons,
          List.take_append_of_le_length (by omega)]
        rfl
      rw [e] at h3
      have h4 : Spec.ContigOK c.nContig ([a] ++ s) := by
        have := contigOK_overlap [a] (s.take (2 * c.nContig - 1)) (s.drop (2 * c.nContig - 1)) h3
          (by rw [List.take_append_drop]; exact h.contig hk) (Or.inr (by simp; omega))
        rwa [List.append_assoc, List.take_append_drop] at this
      have h5 : Spec.ContigOK c.nContig (s ++ [a]) := by
        have := contigOK_reverse h4
        simpa [h.sym] using this
      exact contigOK_overlap [a] s [a] h4 h5 (Or.inr (by omega))

theorem insideSymTest_total {c : Cons} (hc : ContigCons c) (dt stack : Stack) (D : Nat)
    (g : Stack) : ∃ b, insideSymTest c dt stack D g = .ok b := by
  unfold insideSymTest
  exact testPart_total hc _

theorem half_content {s : Stack} {a : Int} :
    (a :: (s ++ [a])).take ((a :: (s ++ [a])).length / 2) = a :: s.take (s.length / 2) := by
  have : (a :: (s ++ [a])).length / 2 = s.length / 2 + 1 := by simp; omega
  rw [this, List.take_succ_cons, List.take_append_of_le_length (by omega)]

/-- A laminate symmetric about its middle, with the plies `t` outside `s`. -/
theorem take_half_mirror (t s : Stack) :
    (t ++ s ++ t.reverse).take ((t ++ s ++ t.reverse).length / 2) = t ++ s.take (s.length / 2) := by
  have e : (t ++ s ++ t.reverse).length / 2 = t.length + s.length / 2 := by simp; omega
  rw [e, List.append_assoc, List.take_length_add_append, List.take_append_of_le_length (by omega)]

theorem nth_mirror_mid (t s : Stack) (h : 1 ≤ s.length) :
    nth (t ++ s ++ t.reverse) ((t ++ s ++ t.reverse).length / 2) = nth s (s.length / 2) := by
  have e : (t ++ s ++ t.reverse).length / 2 = t.length + s.length / 2 := by simp; omega
  rw [e]
  exact nth_mid t s t.reverse _ (by omega)

theorem pairsWithin_inner {d : Int} (A W B : Stack) (h : Spec.DisoOK d W) :
    Spec.PairsWithin d (A ++ W ++ B) A.length (A.length + W.length - 1) := by
  apply pairsWithin_of_cover
  intro i h1 h2 h3
  exact ⟨A, W, B, rfl, h1, by omega, disoOK_nth h _ (by omega)⟩

/-- `repair_diso_contig_from_inside_sym` on a symmetric laminate. -/
theorem repairInsideSym_spec {c : Cons} (hc : ContigCons c) (attr : DamTolAttr) (nD1 : Nat) (ss : Stack)
    (q : List Int) (hsym : ss.reverse = ss) (hlen : 2 * nKeptIn c attr < ss.length)
    (hout : ∀ i, i < nKeptIn c attr → nth ss i ≠ 666) (hmid : nth ss (ss.length / 2) ≠ 666)
    (hq : (ss.take (ss.length / 2)).count 666 ≤ q.length) :
    ∃ res b q', repairInsideSym c attr nD1 ss q = .ok (res, b, q') ∧
      res.length = ss.length ∧ res.reverse = res ∧ ss.take (nKeptIn c attr) <+: res ∧
      nth res (ss.length / 2) = nth ss (ss.length / 2) ∧
      (res.take (ss.length / 2) ++ q').Perm
        ((ss.take (ss.length / 2)).filter (fun x => decide (x ≠ 666)) ++ q) ∧
      q'.length + (ss.take (ss.length / 2)).count 666 = q.length ∧
      (b = true → PliesInRange ss q → 0 ≤ c.deltaAngle → c.diso = true →
        Spec.PairsWithin c.deltaAngle res (nKeptOut c attr - 1)
          (res.length - 1 - (nKeptOut c attr - 1))) ∧
      (b = true → c.contig = true → Spec.ContigOK c.nContig
        ((res.drop (nKeptOut c attr - 1)).take (res.length - 2 * (nKeptOut c attr - 1)))) := by
  have hpred := nKeptIn_pred c attr
  have hkle := nKeptIn_le c attr
  have hk2 := (nKeptOut_pos c attr).2
  generalize hk0 : nKeptIn c attr = k0 at *
  have hhi : k0 ≤ ss.length / 2 + ss.length % 2 - 1 := by omega
  -- the two middle plies are the same
  have hmid2 : ss.length % 2 = 0 → nth ss (ss.length / 2 - 1) = nth ss (ss.length / 2) := by
    intro he
    have := nth_reverse ss (ss.length / 2) (by omega)
    rw [hsym, show ss.length - 1 - ss.length / 2 = ss.length / 2 - 1 by omega] at this
    exact this.symm
  -- content of the half
  have hsplitI : (ss.take (ss.length / 2)) = ss.take k0 ++
      ((ss.drop k0).take (ss.length / 2 + ss.length % 2 - 1 - k0) ++
        (if ss.length % 2 = 0 then [nth ss (ss.length / 2)] else [])) := by
    by_cases he : ss.length % 2 = 0
    · rw [if_pos he]
      have e1 : ss.length / 2 = (ss.length / 2 - 1) + 1 := by omega
      have e2 : ss.take (ss.length / 2) = ss.take (ss.length / 2 - 1) ++ [nth ss (ss.length / 2)] := by
        conv_lhs => rw [e1, List.take_add_one]
        rw [List.getElem?_eq_getElem (by omega), ← hmid2 he, nth_eq_getElem _ _ (by omega)]
        rfl
      rw [e2, ← List.append_assoc, ← take_split]
      congr 2
      omega
    · rw [if_neg he, List.append_nil, ← take_split]
      congr 1
      omega
  have hinitc : ∀ (init : Stack), init = (if ss.length % 2 = 0 then
      [nth ss (ss.length / 2), nth ss (ss.length / 2)] else [nth ss (ss.length / 2)]) →
      init.take (init.length / 2) = (if ss.length % 2 = 0 then [nth ss (ss.length / 2)] else []) := by
    rintro init rfl
    split <;> simp
  have hfil : (ss.take (ss.length / 2)).filter (fun x => decide (x ≠ 666)) = ss.take k0 ++
      (known ss (List.range' k0 (ss.length / 2 + ss.length % 2 - 1 - k0)) ++
        (if ss.length % 2 = 0 then [nth ss (ss.length / 2)] else [])) := by
    rw [hsplitI, List.filter_append, List.filter_append, filter_take_known (by omega) hout,
      known_range' _ _ _ (by omega)]
    congr 2
    split
    · rw [List.filter_singleton, decide_eq_true hmid]; rfl
    · rfl
  have hcnt : (ss.take (ss.length / 2)).count 666 =
      missing ss (List.range' k0 (ss.length / 2 + ss.length % 2 - 1 - k0)) := by
    rw [hsplitI, List.count_append, List.count_append, count_take_known (by omega) hout,
      missing_range' _ _ _ (by omega)]
    have : (if ss.length % 2 = 0 then [nth ss (ss.length / 2)] else []).count 666 = 0 := by
      split
      · rw [List.count_eq_zero]; simp; exact fun h => hmid h.symm
      · rfl
    omega
  generalize hinit0 : (if ss.length % 2 = 0 then
      [nth ss (ss.length / 2), nth ss (ss.length / 2)] else [nth ss (ss.length / 2)]) = init at *
  have hinit : InSymInv c ss (PliesInRange ss q ∧ 0 ≤ c.deltaAngle) init := by
    have hm : PliesInRange ss q ∧ 0 ≤ c.deltaAngle →
        -90 ≤ nth ss (ss.length / 2) ∧ nth ss (ss.length / 2) ≤ 90 :=
      fun H => H.1.1 _ (mem_nth (by omega)) hmid
    by_cases he : ss.length % 2 = 0
    · rw [if_pos he] at hinit0
      subst hinit0
      refine ⟨by simp, by simpa using he.symm, by simp, by simp [nth], ?_, ?_, ?_⟩
      · intro H a ha
        have : a = nth ss (ss.length / 2) := by simpa using ha
        rw [this]; exact hm H
      · intro H hd
        rw [disoOK_iff_nth]
        intro i hi
        have : i = 0 := by simp at hi; omega
        subst this
        show Spec.WithinAngle _ (nth ss (ss.length / 2)) (nth ss (ss.length / 2))
        exact withinAngle_self H.2
      · intro hk
        apply contigOK_short
        obtain ⟨h2, -⟩ := hc hk
        simpa using h2
    · rw [if_neg he] at hinit0
      subst hinit0
      refine ⟨by simp, by simp; omega, by simp, by simp [nth], ?_, ?_, ?_⟩
      · intro H a ha
        rw [List.mem_singleton.1 ha]; exact hm H
      · intro H hd
        rw [disoOK_iff_nth]
        intro i hi
        simp at hi
      · intro hk
        apply contigOK_short
        obtain ⟨h2, -⟩ := hc hk
        simp; omega
  obtain ⟨found, k', stack, ind', q1, e1, e2, e3, e4, e5, e6, e7, e8, e9, e10⟩ :=
    searchLoop_spec (σ := Stack) ss c.angles (fun _ s => nth s (s.length - 1))
      (fun _ s a => testPly c a (nth s 0) ((a :: (s ++ [a])).take (2 * c.nContig)))
      (fun _ s a => a :: (s ++ [a])) (fun s => s.take (s.length / 2))
      (fun a => PliesInRange ss q ∧ 0 ≤ c.deltaAngle → -90 ≤ a ∧ a ≤ 90)
      (fun _ s => InSymInv c ss (PliesInRange ss q ∧ 0 ≤ c.deltaAngle) s)
      (fun k s a => testPly_total hc _ _ _)
      (fun k s a => by rw [half_content])
      (fun k s a hI hP ht => hI.both hc hP ht)
      (ss.length / 2 + ss.length % 2 - 1 - (k0 + nD1)) 0 init
      (List.range' k0 (ss.length / 2 + ss.length % 2 - 1 - k0)).reverse q hinit
      (by
        intro a ha H
        refine mem_known_range H.1 ?_ ha
        intro i hi
        rw [List.mem_reverse, List.mem_range'_1] at hi; omega)
      (fun a ha H => H.1.2 a ha)
  rw [hinitc init rfl] at e3
  rw [missing_perm (List.reverse_perm _)] at e4
  rw [List.length_reverse, List.length_range'] at e6
  have e3' := e3.trans (List.Perm.append_right q (List.Perm.append_left _
    (known_perm (ss := ss) (List.reverse_perm (List.range' k0 (ss.length / 2 + ss.length % 2 - 1 - k0))))))
  obtain ⟨rem, q2, f1, f2, f3, f4, -⟩ := fillPlies_spec ss ind' q1 (by omega)
  have hdtl : (ss.take k0).length = k0 := by simp; omega
  -- the plies of the half
  have hcontent : (ss.take k0 ++ rem ++ stack.take (stack.length / 2) ++ q2).Perm
      ((ss.take (ss.length / 2)).filter (fun x => decide (x ≠ 666)) ++ q) := by
    rw [hfil]
    have g1 : (rem ++ stack.take (stack.length / 2) ++ q2).Perm
        (stack.take (stack.length / 2) ++ known ss ind' ++ q1) := by
      rw [List.append_assoc, List.append_assoc]
      refine List.Perm.trans (List.perm_append_comm_assoc _ _ _) ?_
      exact List.Perm.append_left _ f3
    have g2 := (g1.trans e3').append_left (ss.take k0)
    simp only [List.append_assoc] at g2 ⊢
    refine g2.trans (List.Perm.append_left _ ?_)
    exact List.perm_append_comm_assoc _ _ _
  have hstackl : stack.length / 2 + ind'.length = ss.length / 2 - k0 := by
    have a1 := e3'.length_eq
    simp only [List.length_append, List.length_take] at a1
    have a2 := known_length ss ind'
    have a3 := known_length ss (List.range' k0 (ss.length / 2 + ss.length % 2 - 1 - k0))
    rw [List.length_range'] at a3
    have a4 : (if ss.length % 2 = 0 then [nth ss (ss.length / 2)] else []).length =
        1 - ss.length % 2 := by
      split
      · simp; omega
      · simp; omega
    omega
  have hpar := e2.par
  have hq2 : q2.length + (ss.take (ss.length / 2)).count 666 = q.length := by omega
  -- properties of the laminates built
  have hres : ∀ r : Stack, r.Perm rem →
      ((ss.take k0 ++ r) ++ stack ++ (ss.take k0 ++ r).reverse).length = ss.length ∧
      ((ss.take k0 ++ r) ++ stack ++ (ss.take k0 ++ r).reverse).reverse =
        (ss.take k0 ++ r) ++ stack ++ (ss.take k0 ++ r).reverse ∧
      ss.take k0 <+: (ss.take k0 ++ r) ++ stack ++ (ss.take k0 ++ r).reverse ∧
      nth ((ss.take k0 ++ r) ++ stack ++ (ss.take k0 ++ r).reverse) (ss.length / 2) = nth ss (ss.length / 2) ∧
      (((ss.take k0 ++ r) ++ stack ++ (ss.take k0 ++ r).reverse).take (ss.length / 2) ++ q2).Perm
        ((ss.take (ss.length / 2)).filter (fun x => decide (x ≠ 666)) ++ q) := by
    intro r hr
    have hl : ((ss.take k0 ++ r) ++ stack ++ (ss.take k0 ++ r).reverse).length = ss.length := by
      have := hr.length_eq
      simp only [List.length_append, List.length_reverse, hdtl]
      omega
    refine ⟨hl, ?_, ?_, ?_, ?_⟩
    · simp [e2.sym]
    · exact prefix_append_of (prefix_append_of (List.prefix_append _ _))
    · have := nth_mirror_mid (ss.take k0 ++ r) stack e2.pos
      rw [hl] at this
      rw [this]; exact e2.mid
    · have := take_half_mirror (ss.take k0 ++ r) stack
      rw [hl] at this
      rw [this]
      refine List.Perm.trans ?_ hcontent
      exact ((hr.append_left _).append_right _).append_right _
  have hkdef : (if c.damTol = true then (if twoProtected c attr = true then 2 else 1) else 0) = k0 := by
    rw [← hk0]; rfl
  have hred : repairInsideSym c attr nD1 ss q =
      (if found = false then
        .ok (ss.take k0 ++ (rem.reverse ++ stack ++ rem) ++ (ss.take k0).reverse, false, q2)
      else if stack.length + 2 * (ss.take k0).length < ss.length - 2 * nD1 then
        .error (.exc "This should not happen anymore")
      else do
        let best ← bestPerm rem (insideSymTest c (ss.take k0) stack rem.length)
        match best with
        | none => .ok (ss.take k0 ++ (rem.reverse ++ stack ++ rem) ++ (ss.take k0).reverse, false, q2)
        | some p =>
          let g := permute rem p
          let res := ss.take k0 ++ g ++ stack ++ g.reverse ++ (ss.take k0).reverse
          if res.length ≠ ss.length then .error (.exc "This should not happen") else .ok (res, true, q2)) := by
    unfold repairInsideSym
    dsimp only
    rw [hkdef, if_neg (by omega), hinit0, e1]
    simp only [bind, Except.bind, f1]
    rfl
  rw [hred]
  have hfaileq : ss.take k0 ++ (rem.reverse ++ stack ++ rem) ++ (ss.take k0).reverse =
      (ss.take k0 ++ rem.reverse) ++ stack ++ (ss.take k0 ++ rem.reverse).reverse := by simp
  have fail : ∃ res b q', (.ok (ss.take k0 ++ (rem.reverse ++ stack ++ rem) ++ (ss.take k0).reverse, false, q2) :
        Py (Stack × Bool × List Int)) = .ok (res, b, q') ∧
      res.length = ss.length ∧ res.reverse = res ∧ ss.take k0 <+: res ∧
      nth res (ss.length / 2) = nth ss (ss.length / 2) ∧
      (res.take (ss.length / 2) ++ q').Perm
        ((ss.take (ss.length / 2)).filter (fun x => decide (x ≠ 666)) ++ q) ∧
      q'.length + (ss.take (ss.length / 2)).count 666 = q.length ∧
      (b = true → PliesInRange ss q → 0 ≤ c.deltaAngle → c.diso = true →
        Spec.PairsWithin c.deltaAngle res (nKeptOut c attr - 1)
          (res.length - 1 - (nKeptOut c attr - 1))) ∧
      (b = true → c.contig = true → Spec.ContigOK c.nContig
        ((res.drop (nKeptOut c attr - 1)).take (res.length - 2 * (nKeptOut c attr - 1)))) := by
    obtain ⟨g1, g2, g3, g4, g5⟩ := hres rem.reverse (List.reverse_perm rem)
    rw [hfaileq]
    exact ⟨_, false, q2, rfl, g1, g2, g3, g4, g5, hq2, by simp, by simp⟩
  split
  · exact fail
  · rename_i hf
    have hf : found = true := by simpa using hf
    have hk := e9 hf
    rw [if_neg (by rw [hdtl]; omega)]
    obtain ⟨r, b1, b2, b3⟩ := C30_best_permutation rem (insideSymTest c (ss.take k0) stack rem.length)
      (insideSymTest_total hc (ss.take k0) stack rem.length)
    rw [b1]
    cases r with
    | none => exact fail
    | some p =>
      obtain ⟨c1, c2, -⟩ := b3 p rfl
      have hpp := permute_perm rem p c1
      have hgl : (permute rem p).length = rem.length := hpp.length_eq
      obtain ⟨g1, g2, g3, g4, g5⟩ := hres (permute rem p) hpp
      have hreseq : ss.take k0 ++ permute rem p ++ stack ++ (permute rem p).reverse ++ (ss.take k0).reverse =
        (ss.take k0 ++ permute rem p) ++ stack ++ (ss.take k0 ++ permute rem p).reverse := by simp
      -- the part tested
      have hW : ∃ t : Stack, ss.take k0 ++ permute rem p = ss.take (k0 - 1) ++ t ∧
          t.length ≤ rem.length + 1 ∧
          testPart c ((t ++ stack ++ t.reverse).take (2 + 2 * c.nContig + rem.length)) = .ok true := by
        unfold insideSymTest at c2
        by_cases hdt : c.damTol = true
        · have hpos := nKeptIn_pos (attr := attr) hdt
          rw [if_pos hdt] at c2
          refine ⟨lastK (ss.take k0) 1 ++ permute rem p, ?_, ?_, c2⟩
          · rw [← List.append_assoc]
            congr 1
            unfold lastK
            rw [if_neg (by omega), hdtl]
            conv_lhs => rw [← List.take_append_drop (k0 - 1) (ss.take k0), List.take_take,
              Nat.min_eq_left (by omega)]
          · unfold lastK
            rw [if_neg (by omega)]
            simp; omega
        · rw [if_neg hdt] at c2
          have hz : k0 = 0 := by
            rw [← hk0]; exact nKeptIn_zero (by simpa using hdt)
          exact ⟨permute rem p, by simp [hz], by omega, c2⟩
      obtain ⟨t, ht1, ht2, ht3⟩ := hW
      have htl : t.length = k0 + rem.length - (k0 - 1) := by
        have := congrArg List.length ht1
        simp only [List.length_append, hdtl, hgl, List.length_take] at this
        omega
      have hreseq2 : (ss.take k0 ++ permute rem p) ++ stack ++ (ss.take k0 ++ permute rem p).reverse =
          ss.take (k0 - 1) ++ (t ++ stack ++ t.reverse) ++ (ss.take (k0 - 1)).reverse := by
        rw [ht1]; simp
      have hA : (ss.take (k0 - 1)).length = k0 - 1 := by simp; omega
      refine ⟨_, true, q2, ?_, g1, g2, g3, g4, g5, hq2, ?_, ?_⟩
      · show (if _ then _ else _) = _
        rw [hreseq, if_neg (by simpa using g1)]
      · intro _ H hd0 hd
        have hrange : InRange (t ++ stack ++ t.reverse) := by
          have hr0 : InRange ((ss.take k0 ++ permute rem p) ++ stack ++ (ss.take k0 ++ permute rem p).reverse) := by
            have ha : ∀ a ∈ ss.take k0 ++ permute rem p, -90 ≤ a ∧ a ≤ 90 := by
              intro a ha
              have h1 : a ∈ ss.take k0 ++ rem ++ stack.take (stack.length / 2) ++ q2 := by
                rcases List.mem_append.1 ha with ha | ha
                · exact List.mem_append_left _ (List.mem_append_left _ (List.mem_append_left _ ha))
                · exact List.mem_append_left _ (List.mem_append_left _ (List.mem_append_right _ (hpp.mem_iff.1 ha)))
              rw [hcontent.mem_iff] at h1
              rcases List.mem_append.1 h1 with h1 | h1
              · obtain ⟨h2, h3⟩ := List.mem_filter.1 h1
                exact H.1 a (List.mem_of_mem_take h2) (of_decide_eq_true h3)
              · exact H.2 a h1
            intro a hm
            rcases List.mem_append.1 hm with hm | hm
            · rcases List.mem_append.1 hm with hm | hm
              · exact ha a hm
              · exact e2.rng ⟨H, hd0⟩ a hm
            · exact ha a (List.mem_reverse.1 hm)
          rw [hreseq2] at hr0
          intro a hm
          exact hr0 a (List.mem_append_left _ (List.mem_append_right _ hm))
        have h3 := (testPart_true hc ht3).1 hd
          (fun a hm => hrange a (List.mem_of_mem_take hm))
        have h4 := disoOK_palindrome_window t stack e2.sym (e2.diso ⟨H, hd0⟩ hd) h3 (by omega)
        have h5 := pairsWithin_inner (ss.take (k0 - 1)) (t ++ stack ++ t.reverse) (ss.take (k0 - 1)).reverse h4
        rw [← hreseq2, hA, hpred] at h5
        have e : nKeptOut c attr - 1 + (t ++ stack ++ t.reverse).length - 1 =
            ((ss.take k0 ++ permute rem p) ++ stack ++ (ss.take k0 ++ permute rem p).reverse).length - 1 -
              (nKeptOut c attr - 1) := by
          rw [hreseq2]
          simp only [List.length_append, List.length_reverse, hA]
          have := e2.pos
          omega
        rw [e] at h5
        exact h5
      · intro _ hk'
        have h3 := (testPart_true hc ht3).2 hk'
        have h4 := contigOK_palindrome_window t stack e2.sym (e2.contig hk') h3 (by omega)
        have e : (((ss.take k0 ++ permute rem p) ++ stack ++ (ss.take k0 ++ permute rem p).reverse).drop
            (nKeptOut c attr - 1)).take (((ss.take k0 ++ permute rem p) ++ stack ++
              (ss.take k0 ++ permute rem p).reverse).length - 2 * (nKeptOut c attr - 1)) =
            t ++ stack ++ t.reverse := by
          rw [hreseq2, ← hpred, List.append_assoc (ss.take (k0 - 1))]
          rw [List.drop_left' hA]
          apply List.take_left'
          simp only [List.length_append, List.length_reverse, hA]
          omega
        rw [e]; exact h4

end Bella
