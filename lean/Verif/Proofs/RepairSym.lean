import Verif.Proofs.RepairWindows
import Verif.Props.PlyChoice
/-
The two repair functions for symmetric laminates.
-/
namespace Bella

/-- All the plies are fibre directions. -/
def PliesInRange (ss : Stack) (q : List Int) : Prop :=
  (∀ a ∈ ss, a ≠ 666 → -90 ≤ a ∧ a ≤ 90) ∧ (∀ a ∈ q, -90 ≤ a ∧ a ≤ 90)

theorem mem_nth {ss : Stack} {i : Nat} (h : i < ss.length) : nth ss i ∈ ss := by
  rw [nth_eq_getElem _ _ h]; exact List.getElem_mem h

theorem known_range' (ss : Stack) (a m : Nat) (h : a + m ≤ ss.length) :
    known ss (List.range' a m) = ((ss.drop a).take m).filter (fun x => decide (x ≠ 666)) := by
  unfold known
  congr 1
  apply List.ext_getElem
  · simp; omega
  · intro i h1 h2
    simp only [List.length_map, List.length_range'] at h1
    simp only [List.getElem_map, List.getElem_range', List.getElem_take, List.getElem_drop, Nat.one_mul]
    exact nth_eq_getElem _ _ (by omega)

theorem missing_range' (ss : Stack) (a m : Nat) (h : a + m ≤ ss.length) :
    missing ss (List.range' a m) = ((ss.drop a).take m).count 666 := by
  unfold missing
  congr 1
  apply List.ext_getElem
  · simp; omega
  · intro i h1 h2
    simp only [List.length_map, List.length_range'] at h1
    simp only [List.getElem_map, List.getElem_range', List.getElem_take, List.getElem_drop, Nat.one_mul]
    exact nth_eq_getElem _ _ (by omega)

theorem nth_mem_take {ss : Stack} {m i : Nat} (h : i < m) (h2 : m ≤ ss.length) : nth ss i ∈ ss.take m := by
  rw [nth_eq_getElem _ _ (by omega)]
  exact List.mem_take_iff_getElem.2 ⟨i, by omega, rfl⟩

theorem filter_take_known {ss : Stack} {m : Nat} (h : m ≤ ss.length) (hk : ∀ i, i < m → nth ss i ≠ 666) :
    (ss.take m).filter (fun x => decide (x ≠ 666)) = ss.take m := by
  rw [List.filter_eq_self]
  intro a ha
  obtain ⟨i, hi, rfl⟩ := List.mem_take_iff_getElem.1 ha
  have := hk i (by omega)
  rw [nth_eq_getElem _ _ (by omega)] at this
  exact decide_eq_true this

theorem count_take_known {ss : Stack} {m : Nat} (h : m ≤ ss.length) (hk : ∀ i, i < m → nth ss i ≠ 666) :
    (ss.take m).count 666 = 0 := by
  rw [List.count_eq_zero]
  intro ha
  obtain ⟨i, hi, e⟩ := List.mem_take_iff_getElem.1 ha
  have := hk i (by omega)
  rw [nth_eq_getElem _ _ (by omega)] at this
  exact this e

theorem take_split (ss : Stack) (a m : Nat) : ss.take (a + m) = ss.take a ++ (ss.drop a).take m := by
  rw [List.take_add]

theorem mem_known_range {ss : Stack} {q : List Int} (H : PliesInRange ss q) {ind : List Nat}
    (hind : ∀ i ∈ ind, i < ss.length) {a : Int} (ha : a ∈ known ss ind) : -90 ≤ a ∧ a ≤ 90 := by
  obtain ⟨h1, h2⟩ := List.mem_filter.1 ha
  obtain ⟨i, hi, rfl⟩ := List.mem_map.1 h1
  exact H.1 _ (mem_nth (hind i hi)) (of_decide_eq_true h2)

/-- The laminate between the two halves: the middle ply if the number of plies is odd. -/
def middleOf (ss : Stack) : Stack := if ss.length % 2 = 1 then [nth ss (ss.length / 2)] else []

theorem mirrorWith_eq (ss s : Stack) : mirrorWith ss s = s ++ middleOf ss ++ s.reverse := by
  unfold mirrorWith middleOf
  split <;> simp

theorem middleOf_rev (ss : Stack) : (middleOf ss).reverse = middleOf ss := by
  unfold middleOf; split <;> rfl

theorem middleOf_length (ss : Stack) : (middleOf ss).length = ss.length % 2 := by
  unfold middleOf
  split
  · simp; omega
  · simp; omega

theorem drop_append_split (s g : Stack) (m : Nat) (h : m ≤ s.length) : (s ++ g).drop m = s.drop m ++ g := by
  rw [List.drop_append_of_le_length h]

theorem inRange_perm {l l' : Stack} (h : l.Perm l') (h' : InRange l') : InRange l := by
  intro a ha; exact h' a (h.mem_iff.1 ha)

theorem prefix_append_of {a b c : Stack} (h : a <+: b) : a <+: b ++ c := h.trans (List.prefix_append b c)

/-- number of protected plies kept by the repair from the outside -/
def nKeptOut (c : Cons) (attr : DamTolAttr) : Nat := if twoProtected c attr then 2 else 1

theorem nKeptOut_pos (c : Cons) (attr : DamTolAttr) : 1 ≤ nKeptOut c attr ∧ nKeptOut c attr ≤ 2 := by
  unfold nKeptOut; split <;> omega

/-- Invariant of the plies placed by the repair from the outside. -/
structure OutInv (c : Cons) (attr : DamTolAttr) (ss : Stack) (H : Prop) (s : Stack) : Prop where
  pre : ss.take (nKeptOut c attr) <+: s
  rng : H → InRange s
  diso : H → c.diso = true → Spec.PairsWithin c.deltaAngle s (nKeptOut c attr - 1) (s.length - 1)
  contig : c.contig = true → (∃ r, attr = .rule r) → Spec.ContigOK c.nContig s

theorem OutInv.snoc {c : Cons} (hc : ContigCons c) {attr : DamTolAttr} {ss : Stack} {H : Prop} {s : Stack} {a : Int}
    (hlen : nKeptOut c attr ≤ ss.length)
    (h : OutInv c attr ss H s) (hP : H → -90 ≤ a ∧ a ≤ 90)
    (ht : testPly c a (nth s (s.length - 1))
      ((s ++ [a]).drop (miniOf c attr (s.length + 1 - c.nContig - 1))) = .ok true) :
    OutInv c attr ss H (s ++ [a]) := by
  obtain ⟨h1, h2⟩ := testPly_true hc ht
  have hs : s ≠ [] := by
    rintro rfl
    have h1 := h.pre.length_le
    have h2 := (nKeptOut_pos c attr).1
    rw [List.length_take, List.length_nil] at h1; omega
  refine ⟨prefix_append_of h.pre, ?_, ?_, ?_⟩
  · intro hH x hx
    rcases List.mem_append.1 hx with hx | hx
    · exact h.rng hH x hx
    · rw [List.mem_singleton.1 hx]; exact hP hH
  · intro hH hd
    refine pairsWithin_snoc_r hs (h.diso hH hd) ?_
    have := h1 hd
    rw [isDiso_iff _ _ _ (hP hH) ((h.rng hH).nth _)] at this
    exact withinAngle_comm this
  · rintro hk ⟨r, rfl⟩
    have h3 := h2 hk
    have e : miniOf c (.rule r) (s.length + 1 - c.nContig - 1) = s.length - c.nContig := by
      unfold miniOf
      rw [if_neg (by simp)]; omega
    rw [e, drop_append_split _ _ _ (by omega)] at h3
    have h4 := contigOK_overlap (s.take (s.length - c.nContig)) (s.drop (s.length - c.nContig)) [a]
      (by rw [List.take_append_drop]; exact h.contig hk ⟨r, rfl⟩) h3
      (by
        by_cases hl : s.length ≤ c.nContig
        · left; rw [show s.length - c.nContig = 0 by omega]; rfl
        · right; simp; omega)
    rwa [List.take_append_drop] at h4

/-- The laminate accepted by the test of the last plies is fine. -/
theorem outsideSym_final {c : Cons} (hc : ContigCons c) {attr : DamTolAttr} {ss : Stack} {H : Prop}
    {stack g : Stack} {D : Nat} (hlen : nKeptOut c attr ≤ ss.length) (hI : OutInv c attr ss H stack)
    (hg : g.length = D) (hrg : H → InRange g) (hrm : H → InRange (middleOf ss))
    (ht : outsideSymTest c attr ss stack D g = .ok true) :
    (H → c.diso = true → (∃ r, attr = .rule r) →
      Spec.PairsWithin c.deltaAngle (mirrorWith ss (stack ++ g)) (nKeptOut c attr - 1)
        ((mirrorWith ss (stack ++ g)).length - 1 - (nKeptOut c attr - 1))) ∧
    (c.contig = true → (∃ r, attr = .rule r) → 0 < D → stack.length ≤ D + 1 ∨ c.nContig ≤ D + 1 →
      c.nContig ≤ 2 * D + ss.length % 2 →
      Spec.ContigOK c.nContig (mirrorWith ss (stack ++ g))) := by
  have hs : stack ≠ [] := by
    rintro rfl
    have h1 := hI.pre.length_le
    have h2 := (nKeptOut_pos c attr).1
    rw [List.length_take, List.length_nil] at h1; omega
  have hsl : 0 < stack.length := List.length_pos_iff.2 hs
  have key : (∃ r, attr = .rule r) → testPart c (stack.drop (stack.length - D - 1) ++ g ++ middleOf ss ++
      (lastK (stack.drop (stack.length - D - 1) ++ g) D).reverse) = .ok true := by
    rintro ⟨r, rfl⟩
    unfold outsideSymTest at ht
    have e : miniOf c (.rule r) (stack.length - D - 1) = stack.length - D - 1 := by
      unfold miniOf
      rw [if_neg (by simp)]
    dsimp only at ht
    rw [e] at ht
    unfold middleOf
    split at ht
    · rename_i hp; rw [if_pos hp]; exact ht
    · rename_i hp; rw [if_neg hp]; simpa using ht
  have hsplit : stack = stack.take (stack.length - D - 1) ++ stack.drop (stack.length - D - 1) :=
    (List.take_append_drop _ _).symm
  have hXlen : (stack.drop (stack.length - D - 1)).length = stack.length - (stack.length - D - 1) := by simp
  have hlast : 0 < D → lastK (stack.drop (stack.length - D - 1) ++ g) D = g := by
    intro hD
    unfold lastK
    rw [if_neg (by omega), List.drop_append, hXlen, List.length_append, hXlen, hg]
    rw [List.drop_of_length_le (by rw [hXlen]; omega), List.nil_append]
    rw [show stack.length - (stack.length - D - 1) + D - D - (stack.length - (stack.length - D - 1)) = 0 by omega]
    rfl
  constructor
  · intro hH hd hr
    have ht' := (testPart_true hc (key hr)).1 hd (by
      intro x hx
      have hX : ∀ y ∈ stack.drop (stack.length - D - 1) ++ g, -90 ≤ y ∧ y ≤ 90 := by
        intro y hy
        rcases List.mem_append.1 hy with hy | hy
        · exact hI.rng hH y (List.mem_of_mem_drop hy)
        · exact hrg hH y hy
      rcases List.mem_append.1 hx with hx | hx
      · rcases List.mem_append.1 hx with hx | hx
        · exact hX x hx
        · exact hrm hH x hx
      · rw [List.mem_reverse] at hx
        unfold lastK at hx
        split at hx
        · exact hX x hx
        · exact hX x (List.mem_of_mem_drop hx))
    rw [mirrorWith_eq]
    apply pairsWithin_mirror
    · rw [middleOf_length]; omega
    · have := pairsWithin_append (d := c.deltaAngle) (A := stack.take (stack.length - D - 1))
        (X := stack.drop (stack.length - D - 1)) (G := g) (lo := nKeptOut c attr - 1)
        (by
          intro hn
          have := congrArg List.length hn
          rw [hXlen] at this; simp at this; omega)
        (by rw [← hsplit]; exact hI.diso hH hd)
        (disoOK_infix ht' ⟨[], middleOf ss ++ (lastK (stack.drop (stack.length - D - 1) ++ g) D).reverse, by simp⟩)
      rwa [← hsplit] at this
    · refine disoOK_infix ht' ?_
      have hdrop : (stack ++ g).drop ((stack ++ g).length - 1) <:+ stack.drop (stack.length - D - 1) ++ g := by
        rw [← List.drop_append_of_le_length (by omega)]
        apply List.drop_suffix_drop_left
        simp; omega
      by_cases hD : 0 < D
      · rw [hlast hD]
        obtain ⟨t, ht⟩ := hdrop
        have h3 : (stack ++ g).drop ((stack ++ g).length - 1) <:+ g := by
          rw [List.length_append, List.drop_append, List.drop_of_length_le (by omega), List.nil_append]
          exact List.drop_suffix _ _
        obtain ⟨u, hu⟩ := h3
        rw [← ht]
        refine ⟨t, (u.reverse), ?_⟩
        have : g.reverse = ((stack ++ g).drop ((stack ++ g).length - 1)).reverse ++ u.reverse := by
          rw [← List.reverse_append, hu]
        rw [this]
        simp only [List.append_assoc]
      · have hD0 : D = 0 := by omega
        subst hD0
        have hg0 : g = [] := List.length_eq_zero_iff.1 hg
        subst hg0
        rw [show lastK (stack.drop (stack.length - 0 - 1) ++ []) 0 = stack.drop (stack.length - 1) by simp [lastK]]
        simp
  · intro hk hr hD hn hn2
    obtain ⟨h2, h6, -⟩ := hc hk
    have ht' := (testPart_true hc (key hr)).2 hk
    rw [hlast hD] at ht'
    rw [mirrorWith_eq]
    have := contigOK_mirror (n := c.nContig) (stack.take (stack.length - D - 1))
      (stack.drop (stack.length - D - 1)) g (middleOf ss) (middleOf_rev ss)
      (by rw [← hsplit]; exact hI.contig hk hr) ht'
      (by
        by_cases hl : stack.length ≤ D + 1
        · left; rw [show stack.length - D - 1 = 0 by omega]; rfl
        · right; rw [hXlen]; omega)
      (by rw [hg, middleOf_length]; omega)
    rwa [← hsplit] at this

theorem outsideSymTest_total {c : Cons} (hc : ContigCons c) (attr : DamTolAttr) (ss stack : Stack) (D : Nat)
    (g : Stack) : ∃ b, outsideSymTest c attr ss stack D g = .ok b := by
  unfold outsideSymTest
  exact testPart_total hc _

/-- `repair_diso_contig_from_outside_sym`. -/
theorem repairOutsideSym_spec {c : Cons} (hc : ContigCons c) (attr : DamTolAttr) (nD1 : Nat) (ss : Stack)
    (q : List Int) (hlen : nKeptOut c attr ≤ ss.length / 2)
    (hout : ∀ i, i < nKeptOut c attr → nth ss i ≠ 666)
    (hq : (ss.take (ss.length / 2)).count 666 ≤ q.length) :
    ∃ half b q', repairOutsideSym c attr nD1 ss q = .ok (mirrorWith ss half, b, q') ∧
      half.length = ss.length / 2 ∧ ss.take (nKeptOut c attr) <+: half ∧
      (half ++ q').Perm ((ss.take (ss.length / 2)).filter (fun x => decide (x ≠ 666)) ++ q) ∧
      q'.length + (ss.take (ss.length / 2)).count 666 = q.length ∧
      (b = true → PliesInRange ss q → (∀ a ∈ middleOf ss, a ≠ 666) → c.diso = true →
        (∃ r, attr = .rule r) →
        Spec.PairsWithin c.deltaAngle (mirrorWith ss half) (nKeptOut c attr - 1)
          ((mirrorWith ss half).length - 1 - (nKeptOut c attr - 1))) ∧
      (b = true → c.contig = true → (∃ r, attr = .rule r) → c.nContig ≤ nD1 + 1 →
        (ss.length ≤ c.nContig ∨ c.nContig + 2 * nKeptOut c attr ≤ ss.length) → Spec.ContigOK c.nContig (mirrorWith ss half)) := by
  obtain ⟨hp1, hp2⟩ := nKeptOut_pos c attr
  have hl2 : nKeptOut c attr ≤ ss.length := by omega
  generalize hh : ss.length / 2 = h at *
  have hhl : h ≤ ss.length := by omega
  have hsum : nKeptOut c attr + (h - nKeptOut c attr) = h := by omega
  -- content
  have hfil : (ss.take h).filter (fun x => decide (x ≠ 666)) = ss.take (nKeptOut c attr) ++
      known ss (List.range' (nKeptOut c attr) (h - nKeptOut c attr)) := by
    rw [known_range' _ _ _ (by omega)]
    conv_lhs => rw [← hsum, take_split, List.filter_append, filter_take_known hl2 hout]
  have hcnt : (ss.take h).count 666 = missing ss (List.range' (nKeptOut c attr) (h - nKeptOut c attr)) := by
    rw [missing_range' _ _ _ (by omega)]
    conv_lhs => rw [← hsum, take_split, List.count_append, count_take_known hl2 hout, Nat.zero_add]
  have hinit : OutInv c attr ss (PliesInRange ss q) (ss.take (nKeptOut c attr)) := by
    refine ⟨List.prefix_rfl, ?_, ?_, ?_⟩
    · intro H a ha
      obtain ⟨i, hi, rfl⟩ := List.mem_take_iff_getElem.1 ha
      have h2 := hout i (by omega)
      rw [nth_eq_getElem _ _ (by omega)] at h2
      exact H.1 _ (List.getElem_mem _) h2
    · intro _ _
      rw [pairsWithin_iff_nth]
      intro i h1 h2 h3
      rw [List.length_take] at h3; omega
    · intro hk _
      apply contigOK_short
      obtain ⟨h2, -⟩ := hc hk
      simp; omega
  obtain ⟨found, k', stack, ind', q1, e1, e2, e3, e4, e5, e6, e7, e8, e9, e10⟩ :=
    searchLoop_spec (σ := Stack) ss c.angles (fun _ s => nth s (s.length - 1))
      (fun _ s a => testPly c a (nth s (s.length - 1))
        ((s ++ [a]).drop (miniOf c attr (s.length + 1 - c.nContig - 1))))
      (fun _ s a => s ++ [a]) id
      (fun a => PliesInRange ss q → -90 ≤ a ∧ a ≤ 90)
      (fun _ s => OutInv c attr ss (PliesInRange ss q) s)
      (fun k s a => testPly_total hc _ _ _)
      (fun k s a => by simp)
      (fun k s a hI hP ht => hI.snoc hc hl2 hP ht)
      (h - nD1 - nKeptOut c attr) 0 (ss.take (nKeptOut c attr))
      (List.range' (nKeptOut c attr) (h - nKeptOut c attr)) q hinit
      (by
        intro a ha H
        refine mem_known_range H ?_ ha
        intro i hi
        rw [List.mem_range'_1] at hi; omega)
      (fun a ha H => H.2 a ha)
  simp only [id] at e3
  obtain ⟨rem, q2, f1, f2, f3, f4, -⟩ := fillPlies_spec ss ind' q1 (by omega)
  -- the plies of the half
  have hcontent : (stack ++ rem ++ q2).Perm
      ((ss.take h).filter (fun x => decide (x ≠ 666)) ++ q) := by
    rw [hfil]
    refine List.Perm.trans ?_ e3
    rw [List.append_assoc, List.append_assoc]
    exact List.Perm.append_left _ f3
  have hstackl : stack.length + ind'.length = h := by
    have a1 := e3.length_eq
    simp only [List.length_append] at a1
    have a2 := known_length ss ind'
    have a3 := known_length ss (List.range' (nKeptOut c attr) (h - nKeptOut c attr))
    rw [List.length_range'] at a3
    have a4 : (ss.take (nKeptOut c attr)).length = nKeptOut c attr := by simp; omega
    omega
  have hq2 : q2.length + (ss.take h).count 666 = q.length := by omega
  have hs0 : (if twoProtected c attr = true then 2 else 1) = nKeptOut c attr := rfl
  have hred : repairOutsideSym c attr nD1 ss q =
      (if found = false then .ok (mirrorWith ss (stack ++ rem), false, q2)
        else if stack.length < h - nD1 then .error (.exc "This should not happen anymore")
        else do
          let best ← bestPerm rem (outsideSymTest c attr ss stack rem.length)
          match best with
          | none => .ok (mirrorWith ss (stack ++ rem), false, q2)
          | some p =>
            let res := mirrorWith ss (stack ++ permute rem p)
            if res.length ≠ ss.length then .error (.exc "This should not happen") else .ok (res, true, q2)) := by
    unfold repairOutsideSym
    dsimp only
    rw [hs0, hh, if_neg (by omega), e1]
    simp only [bind, Except.bind, f1]
    rfl
  rw [hred]
  have fail : ∃ half b q', (.ok (mirrorWith ss (stack ++ rem), false, q2) : Py (Stack × Bool × List Int)) =
      .ok (mirrorWith ss half, b, q') ∧
      half.length = h ∧ ss.take (nKeptOut c attr) <+: half ∧
      (half ++ q').Perm ((ss.take h).filter (fun x => decide (x ≠ 666)) ++ q) ∧
      q'.length + (ss.take h).count 666 = q.length ∧
      (b = true → PliesInRange ss q → (∀ a ∈ middleOf ss, a ≠ 666) → c.diso = true →
        (∃ r, attr = .rule r) →
        Spec.PairsWithin c.deltaAngle (mirrorWith ss half) (nKeptOut c attr - 1)
          ((mirrorWith ss half).length - 1 - (nKeptOut c attr - 1))) ∧
      (b = true → c.contig = true → (∃ r, attr = .rule r) → c.nContig ≤ nD1 + 1 →
        (ss.length ≤ c.nContig ∨ c.nContig + 2 * nKeptOut c attr ≤ ss.length) → Spec.ContigOK c.nContig (mirrorWith ss half)) :=
    ⟨stack ++ rem, false, q2, rfl, by simp; omega, prefix_append_of e2.pre, hcontent, hq2, by simp, by simp⟩
  split
  · exact fail
  · rename_i hf
    have hf : found = true := by simpa using hf
    have hk := e9 hf
    rw [List.length_range'] at e6
    rw [if_neg (by omega)]
    obtain ⟨r, b1, b2, b3⟩ := C30_best_permutation rem (outsideSymTest c attr ss stack rem.length)
      (outsideSymTest_total hc attr ss stack rem.length)
    rw [b1]
    cases r with
    | none => exact fail
    | some p =>
      obtain ⟨c1, c2, -⟩ := b3 p rfl
      have hpp := permute_perm rem p c1
      have hgl : (permute rem p).length = rem.length := hpp.length_eq
      have hrl : (mirrorWith ss (stack ++ permute rem p)).length = ss.length := by
        rw [mirrorWith_eq]
        simp only [List.length_append, List.length_reverse, middleOf_length]
        omega
      have hfin := outsideSym_final (H := PliesInRange ss q ∧ ∀ a ∈ middleOf ss, a ≠ 666) hc
        (D := rem.length) (g := permute rem p) hl2
        ⟨e2.pre, fun hH => e2.rng hH.1, fun hH => e2.diso hH.1, e2.contig⟩ hgl
        (by
          intro hH a ha
          have h1 : a ∈ stack ++ rem ++ q2 := by simp [hpp.mem_iff.1 ha]
          rw [hcontent.mem_iff] at h1
          rcases List.mem_append.1 h1 with h1 | h1
          · obtain ⟨h2, h3⟩ := List.mem_filter.1 h1
            exact hH.1.1 a (List.mem_of_mem_take h2) (of_decide_eq_true h3)
          · exact hH.1.2 a h1)
        (by
          intro hH a ha
          refine hH.1.1 a ?_ (hH.2 a ha)
          unfold middleOf at ha
          split at ha
          · rw [List.mem_singleton.1 ha]; exact mem_nth (by omega)
          · simp at ha)
        c2
      refine ⟨stack ++ permute rem p, true, q2, ?_, by simp; omega, prefix_append_of e2.pre, ?_, hq2, ?_, ?_⟩
      · show (if _ then _ else _) = _
        rw [if_neg (by simpa using hrl)]
      · refine List.Perm.trans ?_ hcontent
        rw [List.append_assoc, List.append_assoc]
        exact List.Perm.append_left _ (List.Perm.append_right _ hpp)
      · intro _ H1 H2 hd hr; exact hfin.1 ⟨H1, H2⟩ hd hr
      · intro _ hk' hr h1 h2
        rcases h2 with h2 | h2
        · exact contigOK_short (by rw [hrl]; exact h2)
        · obtain ⟨g2, -⟩ := hc hk'
          exact hfin.2 hk' hr (by omega) (by omega) (by omega)

end Bella
