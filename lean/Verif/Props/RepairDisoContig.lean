import Verif.Props.Constraints
import Verif.Proofs.RepairSymIn
import Verif.Proofs.RepairAsymIn
/-
C27: the repair for disorientation and contiguity only re-orders plies.
C28: when it reports success, the laminate it returns obeys the rules.

`nKeptIn c attr` is the number of plies protected on each face by the damage tolerance rule (0, 1 or 2),
`nKeptOut c attr` the number of plies kept by the first attempt (from the outside: 1, or 2 if two plies
are protected), so that `nKeptOut c attr - 1` is 1 if the pair of outer plies of a face is excepted from
the rules and 0 otherwise.
-/
namespace Bella

/-- The laminate to repair is admissible for the repair: the outer plies and the middle ply are
known, and the queue has as many plies as there are plies to choose. -/
structure Repairable (c : Cons) (attr : DamTolAttr) (ss : Stack) (q : List Int) : Prop where
  len : 2 * nKeptOut c attr < ss.length
  outer : ∀ i, i < nKeptOut c attr → nth ss i ≠ 666 ∧ nth ss (ss.length - 1 - i) ≠ 666
  middle : c.sym = true → ss.length % 2 = 1 → nth ss (ss.length / 2) ≠ 666
  queue : (if c.sym then (ss.take (ss.length / 2)).count 666 else ss.count 666) = q.length
  angles : 666 ∉ q

instance (c : Cons) (attr : DamTolAttr) (ss : Stack) (q : List Int) : Decidable (Repairable c attr ss q) :=
  decidable_of_iff (2 * nKeptOut c attr < ss.length ∧
    (∀ i, i < nKeptOut c attr → nth ss i ≠ 666 ∧ nth ss (ss.length - 1 - i) ≠ 666) ∧
    (c.sym = true → ss.length % 2 = 1 → nth ss (ss.length / 2) ≠ 666) ∧
    (if c.sym then (ss.take (ss.length / 2)).count 666 else ss.count 666) = q.length ∧ 666 ∉ q)
    ⟨fun ⟨a, b, c, d, e⟩ => ⟨a, b, c, d, e⟩, fun ⟨a, b, c, d, e⟩ => ⟨a, b, c, d, e⟩⟩

instance (c : Cons) : Decidable (ContigCons c) := by unfold ContigCons; infer_instance

instance (ss : Stack) (q : List Int) : Decidable (PliesInRange ss q) := by
  unfold PliesInRange; infer_instance

/-- The plies of the laminate that are known. -/
def knownPlies (ss : Stack) : Stack := ss.filter (fun x => decide (x ≠ 666))

theorem not_mem_of_perm {r k q : Stack} (h : r.Perm (knownPlies k ++ q)) (hq : 666 ∉ q) : 666 ∉ r := by
  intro hm
  rcases List.mem_append.1 (h.mem_iff.1 hm) with h1 | h1
  · have := (List.mem_filter.1 h1).2
    simp at this
  · exact hq h1

theorem knownPlies_self {r : Stack} (h : 666 ∉ r) : knownPlies r = r := by
  unfold knownPlies
  rw [List.filter_eq_self]
  intro a ha
  refine decide_eq_true ?_
  rintro rfl; exact h ha

theorem nth_ne_of_not_mem {r : Stack} (h : 666 ∉ r) (i : Nat) (hi : i < r.length) : nth r i ≠ 666 := by
  intro hh; exact h (hh ▸ mem_nth hi)

theorem mirrorWith_length' (ss half : Stack) (h : half.length = ss.length / 2) :
    (mirrorWith ss half).length = ss.length := by
  rw [mirrorWith_eq]
  simp only [List.length_append, List.length_reverse, middleOf_length, h]
  omega

theorem mirrorWith_sym (ss half : Stack) : (mirrorWith ss half).reverse = mirrorWith ss half := by
  rw [mirrorWith_eq]; simp [middleOf_rev]

theorem mirrorWith_take (ss half : Stack) (h : half.length = ss.length / 2) :
    (mirrorWith ss half).take (ss.length / 2) = half := by
  rw [mirrorWith_eq, List.append_assoc, List.take_left' h]

theorem mirrorWith_mid (ss half : Stack) (h : half.length = ss.length / 2) (hodd : ss.length % 2 = 1) :
    nth (mirrorWith ss half) (ss.length / 2) = nth ss (ss.length / 2) := by
  have hm : middleOf ss = [nth ss (ss.length / 2)] := by unfold middleOf; rw [if_pos hodd]
  rw [mirrorWith_eq, hm, ← h]
  unfold nth
  simp

theorem trim_infix (l : Stack) (a b : Nat) : (l.drop a).take b <:+: l :=
  (List.take_prefix _ _).isInfix.trans (List.drop_suffix _ _).isInfix

/-- The symmetric case of `repair_diso_contig`. -/
theorem repairDisoContig_sym {c : Cons} (hc : ContigCons c) {attr : DamTolAttr} {nD1 : Nat} {ss : Stack}
    {q : List Int} (hs : c.sym = true) (h : Repairable c attr ss q) :
    ∃ res b1 b2, repairDisoContig c attr nD1 ss q = .ok (res, b1, b2) ∧ (b1 = true → b2 = true) ∧
      res.length = ss.length ∧ res.reverse = res ∧
      ss.take (nKeptIn c attr) <+: res ∧
      (ss.length % 2 = 1 → nth res (ss.length / 2) = nth ss (ss.length / 2)) ∧
      (res.take (ss.length / 2)).Perm (knownPlies (ss.take (ss.length / 2)) ++ q) ∧
      (b2 = true → PliesInRange ss q → 0 ≤ c.deltaAngle → c.diso = true → (∃ r, attr = .rule r) →
        Spec.PairsWithin c.deltaAngle res (nKeptOut c attr - 1) (res.length - 1 - (nKeptOut c attr - 1))) ∧
      (b2 = true → c.contig = true → (∃ r, attr = .rule r) → c.nContig ≤ nD1 + 1 →
        (ss.length ≤ c.nContig ∨ c.nContig + 2 * nKeptOut c attr ≤ ss.length) →
        Spec.ContigOK c.nContig
          ((res.drop (nKeptOut c attr - 1)).take (res.length - 2 * (nKeptOut c attr - 1)))) := by
  have hlen := h.len
  have hle := nKeptIn_le c attr
  have hq := h.queue
  rw [if_pos hs] at hq
  obtain ⟨half, b, q', e1, e2, e3, e4, e5, e6, e7⟩ := repairOutsideSym_spec hc attr nD1 ss q (by omega)
    (fun i hi => (h.outer i hi).1) (by omega)
  have hq' : q' = [] := List.eq_nil_of_length_eq_zero (by omega)
  subst hq'
  rw [List.append_nil] at e4
  have hpre : ss.take (nKeptIn c attr) <+: mirrorWith ss half := by
    refine List.IsPrefix.trans ?_ (e3.trans ?_)
    · exact List.take_prefix_take_left hle
    · rw [mirrorWith_eq, List.append_assoc]; exact List.prefix_append _ _
  have hmidne : ∀ a ∈ middleOf ss, a ≠ 666 := by
    unfold middleOf
    intro a ha
    split at ha
    · rename_i ho
      rw [List.mem_singleton.1 ha]
      exact h.middle hs ho
    · simp at ha
  have hL := mirrorWith_length' ss half e2
  have hS := mirrorWith_sym ss half
  unfold repairDisoContig
  rw [if_pos hs, e1]
  simp only [bind, Except.bind]
  cases b with
  | true =>
    rw [if_pos rfl]
    refine ⟨_, true, true, rfl, fun h => h, hL, hS, hpre, mirrorWith_mid ss half e2, ?_, ?_, ?_⟩
    · rw [mirrorWith_take ss half e2]; exact e4
    · intro _ H _ hd ha
      exact e6 rfl H hmidne hd ha
    · intro _ hk ha hn hsz
      exact contigOK_infix (e7 rfl hk ha hn hsz) (trim_infix _ _ _)
  | false =>
    rw [if_neg (by simp), if_pos hs]
    have hnm : 666 ∉ mirrorWith ss half := by
      have h1 := not_mem_of_perm e4 h.angles
      rw [mirrorWith_eq]
      intro hm
      rcases List.mem_append.1 hm with hm | hm
      · rcases List.mem_append.1 hm with hm | hm
        · exact h1 hm
        · exact hmidne _ hm rfl
      · exact h1 (List.mem_reverse.1 hm)
    obtain ⟨res, b, q', f1, f2, f3, f4, f5, f6, f7, f8, f9⟩ := repairInsideSym_spec hc attr nD1
      (mirrorWith ss half) [] hS (by rw [hL]; omega)
      (fun i hi => nth_ne_of_not_mem hnm i (by rw [hL]; omega))
      (nth_ne_of_not_mem hnm _ (by rw [hL]; omega))
      (by
        rw [List.length_nil, Nat.le_zero, List.count_eq_zero]
        exact fun hm => hnm (List.mem_of_mem_take hm))
    have hq' : q' = [] := List.eq_nil_of_length_eq_zero (by rw [List.length_nil] at f7; omega)
    subst hq'
    rw [f1]
    refine ⟨res, false, b, rfl, by simp, f2.trans hL, f3, ?_, ?_, ?_, ?_, ?_⟩
    · refine List.IsPrefix.trans ?_ f4
      rw [List.prefix_iff_eq_take] at hpre
      rw [hpre, List.length_take, Nat.min_eq_left (by omega)]
    · intro ho
      rw [hL] at f5
      rw [f5]; exact mirrorWith_mid ss half e2 ho
    · rw [hL, mirrorWith_take ss half e2, List.append_nil, List.append_nil] at f6
      refine f6.trans ?_
      have : half.filter (fun x => decide (x ≠ 666)) = half := knownPlies_self (not_mem_of_perm e4 h.angles)
      rw [this]; exact e4
    · intro hb H hd0 hd _
      refine f8 hb ⟨?_, by simp⟩ hd0 hd
      intro a ha _
      have : ∀ a ∈ half, -90 ≤ a ∧ a ≤ 90 := by
        intro a ha
        rcases List.mem_append.1 (e4.mem_iff.1 ha) with h1 | h1
        · obtain ⟨h2, h3⟩ := List.mem_filter.1 h1
          exact H.1 a (List.mem_of_mem_take h2) (of_decide_eq_true h3)
        · exact H.2 a h1
      rw [mirrorWith_eq] at ha
      rcases List.mem_append.1 ha with hm | hm
      · rcases List.mem_append.1 hm with hm | hm
        · exact this a hm
        · have hne := hmidne a hm
          unfold middleOf at hm
          split at hm
          · rw [List.mem_singleton.1 hm] at hne ⊢
            exact H.1 _ (mem_nth (by omega)) hne
          · simp at hm
      · exact this a (List.mem_reverse.1 hm)
    · intro hb hk _ _ _
      exact f9 hb hk

/-- The asymmetric case of `repair_diso_contig`. -/
theorem repairDisoContig_asym {c : Cons} (hc : ContigCons c) {attr : DamTolAttr} {nD1 : Nat} {ss : Stack}
    {q : List Int} (hs : c.sym = false) (h : Repairable c attr ss q) :
    ∃ res b1 b2, repairDisoContig c attr nD1 ss q = .ok (res, b1, b2) ∧ (b1 = true → b2 = true) ∧
      res.length = ss.length ∧
      ss.take (nKeptIn c attr) <+: res ∧ ss.drop (ss.length - nKeptIn c attr) <:+ res ∧
      res.Perm (knownPlies ss ++ q) ∧
      (b2 = true → PliesInRange ss q → c.diso = true → (∃ r, attr = .rule r) → 1 ≤ nD1 →
        ss.length - 2 * (nKeptOut c attr - 1) ≠ 4 + min nD1 (ss.length - 2 * nKeptIn c attr - 1) + c.nContig →
        Spec.PairsWithin c.deltaAngle res (nKeptOut c attr - 1) (res.length - 1 - (nKeptOut c attr - 1))) ∧
      (b2 = true → c.contig = true → (∃ r, attr = .rule r) → c.nContig ≤ nD1 →
        ss.length - 2 * (nKeptOut c attr - 1) ≠ 4 + min nD1 (ss.length - 2 * nKeptIn c attr - 1) + c.nContig →
        Spec.ContigOK c.nContig
          ((res.drop (nKeptOut c attr - 1)).take (res.length - 2 * (nKeptOut c attr - 1)))) := by
  have hlen := h.len
  have hle := nKeptIn_le c attr
  have hq := h.queue
  rw [if_neg (by simp [hs])] at hq
  obtain ⟨s1, b, q', e1, e2, e3, e3', e4, e5, e6, e7⟩ := repairOutsideAsym_spec hc attr nD1 ss q (by omega)
    h.outer (by omega)
  have hq' : q' = [] := List.eq_nil_of_length_eq_zero (by omega)
  subst hq'
  rw [List.append_nil] at e4
  have hpre : ss.take (nKeptIn c attr) <+: s1 :=
    List.IsPrefix.trans (List.take_prefix_take_left hle) e3
  have hsuf : ss.drop (ss.length - nKeptIn c attr) <:+ s1 :=
    List.IsSuffix.trans (List.drop_suffix_drop_left _ (by omega)) e3'
  unfold repairDisoContig
  rw [if_neg (by simp [hs]), e1]
  simp only [bind, Except.bind]
  cases b with
  | true =>
    rw [if_pos rfl]
    refine ⟨s1, true, true, rfl, fun h => h, e2, hpre, hsuf, e4, ?_, ?_⟩
    · intro _ H hd ha h1 _
      exact e6 rfl H ha h1 hd
    · intro _ hk ha hn _
      exact contigOK_infix (e7 rfl hk ha hn hlen) (trim_infix _ _ _)
  | false =>
    rw [if_neg (by simp), if_neg (by simp [hs])]
    have hnm : 666 ∉ s1 := not_mem_of_perm e4 h.angles
    obtain ⟨res, b, q', f1, f2, f3, f4, f5, f6, f7, f8⟩ := repairInsideAsym_spec hc attr nD1
      s1 [] (by rw [e2]; omega)
      (fun i hi => ⟨nth_ne_of_not_mem hnm i (by omega), nth_ne_of_not_mem hnm _ (by omega)⟩)
      (nth_ne_of_not_mem hnm _ (by omega))
      (by rw [List.length_nil, Nat.le_zero, List.count_eq_zero]; exact hnm)
    have hq' : q' = [] := List.eq_nil_of_length_eq_zero (by rw [List.length_nil] at f6; omega)
    subst hq'
    rw [f1]
    refine ⟨res, false, b, rfl, by simp, f2.trans e2, ?_, ?_, ?_, ?_, ?_⟩
    · refine List.IsPrefix.trans ?_ f3
      rw [List.prefix_iff_eq_take] at hpre
      rw [hpre, List.length_take, Nat.min_eq_left (by omega)]
    · refine List.IsSuffix.trans ?_ f4
      rw [List.suffix_iff_eq_drop] at hsuf
      rw [hsuf, List.length_drop, e2, show ss.length - (ss.length - (ss.length - nKeptIn c attr)) =
        ss.length - nKeptIn c attr by omega]
    · rw [List.append_nil, List.append_nil] at f5
      refine f5.trans ?_
      have : s1.filter (fun x => decide (x ≠ 666)) = s1 := knownPlies_self hnm
      rw [this]; exact e4
    · intro hb H hd _ _ hsz
      refine f7 hb ⟨?_, by simp⟩ hd (by rw [e2]; exact hsz)
      intro a ha _
      rcases List.mem_append.1 (e4.mem_iff.1 ha) with h1 | h1
      · obtain ⟨h2, h3⟩ := List.mem_filter.1 h1
        exact H.1 a h2 (of_decide_eq_true h3)
      · exact H.2 a h1
    · intro hb hk _ _ hsz
      exact f8 hb hk (by rw [e2]; exact hsz)


/-! ### C27 -/

/-- **C27** (symmetric laminates): the repair ends without an exception and returns a symmetric laminate
of the same size whose half has exactly the known plies of the half and the plies of the queue; the plies
protected by the damage tolerance rule and the middle ply are unchanged, whether the repair is
successful or not. -/
theorem C27_reorders_symmetric {c : Cons} (hc : ContigCons c) (attr : DamTolAttr) (nD1 : Nat) (ss : Stack)
    (q : List Int) (hs : c.sym = true) (h : Repairable c attr ss q) :
    ∃ res inward outward, repairDisoContig c attr nD1 ss q = .ok (res, inward, outward) ∧
      (inward = true → outward = true) ∧
      res.length = ss.length ∧ Spec.Symmetric res ∧
      res.take (nKeptIn c attr) = ss.take (nKeptIn c attr) ∧
      (ss.length % 2 = 1 → res[ss.length / 2]? = ss[ss.length / 2]?) ∧
      (res.take (ss.length / 2)).Perm (knownPlies (ss.take (ss.length / 2)) ++ q) := by
  obtain ⟨res, b1, b2, e1, e2, e3, e4, e5, e6, e7, -, -⟩ := repairDisoContig_sym (nD1 := nD1) hc hs h
  have hl := h.len
  have hle := nKeptIn_le c attr
  refine ⟨res, b1, b2, e1, e2, e3, e4, ?_, ?_, e7⟩
  · rw [List.prefix_iff_eq_take, List.length_take, Nat.min_eq_left (by omega)] at e5
    exact e5.symm
  · intro ho
    have := e6 ho
    rw [nth_eq_getElem _ _ (by omega), nth_eq_getElem _ _ (by omega)] at this
    rw [List.getElem?_eq_getElem (by omega), List.getElem?_eq_getElem (by omega), this]

/-- **C27** (asymmetric laminates): the repair ends without an exception and returns a laminate of the same
size with exactly the known plies and the plies of the queue; the plies protected by the damage tolerance
rule are unchanged on both faces, whether the repair is successful or not. -/
theorem C27_reorders_asymmetric {c : Cons} (hc : ContigCons c) (attr : DamTolAttr) (nD1 : Nat) (ss : Stack)
    (q : List Int) (hs : c.sym = false) (h : Repairable c attr ss q) :
    ∃ res inward outward, repairDisoContig c attr nD1 ss q = .ok (res, inward, outward) ∧
      (inward = true → outward = true) ∧
      res.length = ss.length ∧
      res.take (nKeptIn c attr) = ss.take (nKeptIn c attr) ∧
      res.drop (ss.length - nKeptIn c attr) = ss.drop (ss.length - nKeptIn c attr) ∧
      res.Perm (knownPlies ss ++ q) := by
  obtain ⟨res, b1, b2, e1, e2, e3, e4, e5, e6, -, -⟩ := repairDisoContig_asym (nD1 := nD1) hc hs h
  have hl := h.len
  have hle := nKeptIn_le c attr
  refine ⟨res, b1, b2, e1, e2, e3, ?_, ?_, e6⟩
  · rw [List.prefix_iff_eq_take, List.length_take, Nat.min_eq_left (by omega)] at e4
    exact e4.symm
  · rw [List.suffix_iff_eq_drop, List.length_drop, e3,
      show ss.length - (ss.length - (ss.length - nKeptIn c attr)) = ss.length - nKeptIn c attr by omega] at e5
    exact e5.symm

theorem repairListLoop_spec {c : Cons} {attr : DamTolAttr} {nD1 : Nat}
    : ∀ (cands : List (Stack × List Int)) (ind : Nat) (first : Option Stack),
      (∀ p ∈ cands, ∃ r, repairDisoContig c attr nD1 p.1 p.2 = .ok r) →
      (∃ (i : Nat) (p : Stack × List Int) (res : Stack) (b1 b2 : Bool), cands[i]? = some p ∧
        repairListLoop c attr nD1 ind first cands = .ok (res, b1, b2, ind + i) ∧
        repairDisoContig c attr nD1 p.1 p.2 = .ok (res, b1, b2) ∧ (b1 = true ∨ b2 = true) ∧
        ∀ (j : Nat) (p' : Stack × List Int), j < i → cands[j]? = some p' →
          ∃ r, repairDisoContig c attr nD1 p'.1 p'.2 = .ok (r, false, false)) ∨
      ((∀ p ∈ cands, ∃ r, repairDisoContig c attr nD1 p.1 p.2 = .ok (r, false, false)) ∧
        match first, cands with
        | none, [] => repairListLoop c attr nD1 ind first cands = .error .unbound
        | some s, _ => repairListLoop c attr nD1 ind first cands = .ok (s, false, false, 0)
        | none, p :: _ => ∃ r, repairDisoContig c attr nD1 p.1 p.2 = .ok (r, false, false) ∧
            repairListLoop c attr nD1 ind first cands = .ok (r, false, false, 0)) := by
  intro cands
  induction cands with
  | nil =>
    intro ind first _
    refine Or.inr ⟨by simp, ?_⟩
    cases first <;> rfl
  | cons p rest ih =>
    intro ind first h
    obtain ⟨⟨s, b1, b2⟩, hp⟩ := h p (by simp)
    obtain ⟨ss, q⟩ := p
    dsimp only at hp
    by_cases hb : b1 = true ∨ b2 = true
    · refine Or.inl ⟨0, (ss, q), s, b1, b2, rfl, ?_, hp, hb, by simp⟩
      rw [repairListLoop, hp]
      simp only [bind, Except.bind]
      rw [if_pos hb]
      rfl
    · have hb1 : b1 = false := by
        cases b1
        · rfl
        · exact absurd (Or.inl rfl) hb
      have hb2 : b2 = false := by
        cases b2
        · rfl
        · exact absurd (Or.inr rfl) hb
      subst hb1 hb2
      have hstep : repairListLoop c attr nD1 ind first ((ss, q) :: rest) =
          repairListLoop c attr nD1 (ind + 1) (some (first.getD s)) rest := by
        rw [repairListLoop, hp]
        simp only [bind, Except.bind]
        rw [if_neg hb]
      rcases ih (ind + 1) (some (first.getD s)) (fun p hp => h p (by simp [hp])) with h1 | ⟨h1, h2⟩
      · obtain ⟨i, p, res, b1, b2, g1, g2, g3, g4, g5⟩ := h1
        refine Or.inl ⟨i + 1, p, res, b1, b2, by simpa using g1, ?_, g3, g4, ?_⟩
        · rw [hstep, g2]
          congr 4
          omega
        · intro j p' hj hp'
          cases j with
          | zero =>
            simp only [List.getElem?_cons_zero, Option.some.injEq] at hp'
            subst hp'
            exact ⟨s, hp⟩
          | succ j => exact g5 j p' (by omega) (by simpa using hp')
      · refine Or.inr ⟨?_, ?_⟩
        · intro p hp'
          rcases List.mem_cons.1 hp' with rfl | hp'
          · exact ⟨s, hp⟩
          · exact h1 p hp'
        · dsimp only at h2
          cases first with
          | none => exact ⟨s, hp, hstep.trans h2⟩
          | some s0 => exact hstep.trans h2

/-- **C27** (list of candidates): `repair_diso_contig_list` returns the repair of the first candidate that can
be repaired, with its index in the list, or else the (unsuccessful) repair of the first candidate; it
raises for an empty list. -/
theorem C27_first_repairable_candidate {c : Cons} (hc : ContigCons c) (attr : DamTolAttr) (nD1 : Nat)
    (cands : List (Stack × List Int)) (h : ∀ p ∈ cands, Repairable c attr p.1 p.2) :
    (cands = [] → repairDisoContigList c attr nD1 cands = .error .unbound) ∧
    (cands ≠ [] → ∃ (i : Nat) (p : Stack × List Int) (res : Stack) (inward outward : Bool),
      cands[i]? = some p ∧
      repairDisoContigList c attr nD1 cands = .ok (res, inward, outward, i) ∧
      repairDisoContig c attr nD1 p.1 p.2 = .ok (res, inward, outward) ∧
      (outward = true → ∀ (j : Nat) (p' : Stack × List Int), j < i → cands[j]? = some p' →
          ∃ r, repairDisoContig c attr nD1 p'.1 p'.2 = .ok (r, false, false)) ∧
      (outward = false → i = 0 ∧ ∀ p' ∈ cands,
          ∃ r, repairDisoContig c attr nD1 p'.1 p'.2 = .ok (r, false, false))) := by
  have himp : ∀ p ∈ cands, ∃ r b1 b2, repairDisoContig c attr nD1 p.1 p.2 = .ok (r, b1, b2) ∧
      (b1 = true → b2 = true) := by
    intro p hp
    cases hs : c.sym with
    | true =>
      obtain ⟨r, b1, b2, h1, h2, -⟩ := C27_reorders_symmetric hc attr nD1 p.1 p.2 hs (h p hp)
      exact ⟨r, b1, b2, h1, h2⟩
    | false =>
      obtain ⟨r, b1, b2, h1, h2, -⟩ := C27_reorders_asymmetric hc attr nD1 p.1 p.2 hs (h p hp)
      exact ⟨r, b1, b2, h1, h2⟩
  have htot : ∀ p ∈ cands, ∃ r, repairDisoContig c attr nD1 p.1 p.2 = .ok r := by
    intro p hp
    obtain ⟨r, b1, b2, h1, -⟩ := himp p hp
    exact ⟨_, h1⟩
  refine ⟨?_, ?_⟩
  · rintro rfl; rfl
  · intro hne
    rcases repairListLoop_spec cands 0 none htot with h1 | ⟨h1, h2⟩
    · obtain ⟨i, p, res, b1, b2, g1, g2, g3, g4, g5⟩ := h1
      rw [Nat.zero_add] at g2
      refine ⟨i, p, res, b1, b2, g1, g2, g3, fun _ => g5, ?_⟩
      intro hb
      obtain ⟨r, b1', b2', k1, k2⟩ := himp p (List.mem_of_getElem? g1)
      rw [g3] at k1
      simp only [Except.ok.injEq, Prod.mk.injEq] at k1
      obtain ⟨-, rfl, rfl⟩ := k1
      rcases g4 with g4 | g4
      · rw [k2 g4] at hb; cases hb
      · rw [g4] at hb; cases hb
    · cases cands with
      | nil => exact absurd rfl hne
      | cons p rest =>
        obtain ⟨r, k1, k2⟩ := h2
        exact ⟨0, p, r, false, false, rfl, k2, k1, by simp, fun _ => ⟨rfl, h1⟩⟩

/-! ### C28 -/

/-- **C28** (disorientation, symmetric laminates): after a successful repair neighbouring plies are at
most `delta_angle` apart, the two outer plies of each face excepted if they are protected. -/
theorem C28_disorientation_symmetric {c : Cons} (hc : ContigCons c) (r : Int) (nD1 : Nat) (ss : Stack)
    (q : List Int) (hs : c.sym = true) (h : Repairable c (.rule r) ss q) (hr : PliesInRange ss q)
    (hd : c.diso = true) (hdelta : 0 ≤ c.deltaAngle) {res : Stack} {inward outward : Bool}
    (hres : repairDisoContig c (.rule r) nD1 ss q = .ok (res, inward, outward))
    (hok : inward = true ∨ outward = true) :
    Spec.PairsWithin c.deltaAngle res (nKeptOut c (.rule r) - 1)
      (res.length - 1 - (nKeptOut c (.rule r) - 1)) := by
  obtain ⟨res', b1, b2, e1, e2, -, -, -, -, -, e8, -⟩ := repairDisoContig_sym (nD1 := nD1) hc hs h
  rw [hres] at e1
  simp only [Except.ok.injEq, Prod.mk.injEq] at e1
  obtain ⟨rfl, rfl, rfl⟩ := e1
  exact e8 (hok.elim e2 id) hr hdelta hd ⟨r, rfl⟩

/-- **C28** (contiguity, symmetric laminates): after a successful repair no more than `n_contig`
consecutive plies have the same angle, the outermost ply of each face excepted if two plies are protected.
Needs `n_contig ≤ n_D1 + 1` and a laminate that is not just above `n_contig` plies: see
`C28_violation_small_laminate`. -/
theorem C28_contiguity_symmetric {c : Cons} (hc : ContigCons c) (r : Int) (nD1 : Nat) (ss : Stack)
    (q : List Int) (hs : c.sym = true) (h : Repairable c (.rule r) ss q)
    (hk : c.contig = true) (hn : c.nContig ≤ nD1 + 1)
    (hsize : ss.length ≤ c.nContig ∨ c.nContig + 2 * nKeptOut c (.rule r) ≤ ss.length)
    {res : Stack} {inward outward : Bool}
    (hres : repairDisoContig c (.rule r) nD1 ss q = .ok (res, inward, outward))
    (hok : inward = true ∨ outward = true) :
    Spec.ContigOK c.nContig
      ((res.drop (nKeptOut c (.rule r) - 1)).take (res.length - 2 * (nKeptOut c (.rule r) - 1))) := by
  obtain ⟨res', b1, b2, e1, e2, -, -, -, -, -, -, e9⟩ := repairDisoContig_sym (nD1 := nD1) hc hs h
  rw [hres] at e1
  simp only [Except.ok.injEq, Prod.mk.injEq] at e1
  obtain ⟨rfl, rfl, rfl⟩ := e1
  exact e9 (hok.elim e2 id) hk ⟨r, rfl⟩ hn hsize

/-- **C28** (disorientation, asymmetric laminates).  Needs `n_D1 ≥ 1` and a size different from the one
for which the code forgets the last ply: see `C28_violation_last_ply`. -/
theorem C28_disorientation_asymmetric {c : Cons} (hc : ContigCons c) (r : Int) (nD1 : Nat) (ss : Stack)
    (q : List Int) (hs : c.sym = false) (h : Repairable c (.rule r) ss q) (hr : PliesInRange ss q)
    (hd : c.diso = true) (hn : 1 ≤ nD1)
    (hsize : ss.length - 2 * (nKeptOut c (.rule r) - 1) ≠
      4 + min nD1 (ss.length - 2 * nKeptIn c (.rule r) - 1) + c.nContig)
    {res : Stack} {inward outward : Bool}
    (hres : repairDisoContig c (.rule r) nD1 ss q = .ok (res, inward, outward))
    (hok : inward = true ∨ outward = true) :
    Spec.PairsWithin c.deltaAngle res (nKeptOut c (.rule r) - 1)
      (res.length - 1 - (nKeptOut c (.rule r) - 1)) := by
  obtain ⟨res', b1, b2, e1, e2, -, -, -, -, e8, -⟩ := repairDisoContig_asym (nD1 := nD1) hc hs h
  rw [hres] at e1
  simp only [Except.ok.injEq, Prod.mk.injEq] at e1
  obtain ⟨rfl, rfl, rfl⟩ := e1
  exact e8 (hok.elim e2 id) hr hd ⟨r, rfl⟩ hn hsize

/-- **C28** (contiguity, asymmetric laminates).  Needs `n_contig ≤ n_D1`: see
`C28_violation_few_permuted_plies`. -/
theorem C28_contiguity_asymmetric {c : Cons} (hc : ContigCons c) (r : Int) (nD1 : Nat) (ss : Stack)
    (q : List Int) (hs : c.sym = false) (h : Repairable c (.rule r) ss q)
    (hk : c.contig = true) (hn : c.nContig ≤ nD1)
    (hsize : ss.length - 2 * (nKeptOut c (.rule r) - 1) ≠
      4 + min nD1 (ss.length - 2 * nKeptIn c (.rule r) - 1) + c.nContig)
    {res : Stack} {inward outward : Bool}
    (hres : repairDisoContig c (.rule r) nD1 ss q = .ok (res, inward, outward))
    (hok : inward = true ∨ outward = true) :
    Spec.ContigOK c.nContig
      ((res.drop (nKeptOut c (.rule r) - 1)).take (res.length - 2 * (nKeptOut c (.rule r) - 1))) := by
  obtain ⟨res', b1, b2, e1, e2, -, -, -, -, -, e9⟩ := repairDisoContig_asym (nD1 := nD1) hc hs h
  rw [hres] at e1
  simp only [Except.ok.injEq, Prod.mk.injEq] at e1
  obtain ⟨rfl, rfl, rfl⟩ := e1
  exact e9 (hok.elim e2 id) hk ⟨r, rfl⟩ hn hsize

/-- Constraints used in the examples. -/
def exRepairArgs (sym : Bool) (n : Nat) : ConsArgs :=
  {
    sym := sym, diso := true, deltaAngle := 45, contig := true, nContig := n }

/-- **C28** violated: with `n_contig = 5` a symmetric laminate of six equal plies is reported as
successfully repaired, with the default `n_D1 = 6`. -/
theorem C28_violation_small_laminate : ∃ c, mkConstraints (exRepairArgs true 5) = .ok c ∧
    Repairable c (.rule 1) [0, 0, 0, 0, 0, 0] [] ∧
    repairDisoContig c (.rule 1) 6 [0, 0, 0, 0, 0, 0] [] = .ok ([0, 0, 0, 0, 0, 0], true, true) ∧
    ¬ Spec.ContigOK 5 [0, 0, 0, 0, 0, 0] := by
  obtain ⟨c, hc, ht⟩ := ok_of_test (mkConstraints (exRepairArgs true 5)) (fun (c : Cons) => decide (
    Repairable c (.rule 1) [0, 0, 0, 0, 0, 0] [] ∧
    repairDisoContig c (.rule 1) 6 [0, 0, 0, 0, 0, 0] [] = .ok ([0, 0, 0, 0, 0, 0], true, true))) (by decide +kernel)
  obtain ⟨h1, h2⟩ := of_decide_eq_true ht
  refine ⟨c, hc, h1, h2, ?_⟩
  intro h; exact h 0 (List.infix_refl _)

/-- **C28** violated: when the part tested has `4 + D + n_contig` plies, `D` being the number of plies of the
last permutation, its last ply is not tested, and here the neighbours 90 and 0 are accepted. -/
theorem C28_violation_last_ply : ∃ c, mkConstraints (exRepairArgs false 2) = .ok c ∧
    Repairable c (.rule 1) [45, 90, 45, 0, 0, 0, 0] [] ∧
    repairDisoContig c (.rule 1) 1 [45, 90, 45, 0, 0, 0, 0] [] =
      .ok ([0, 45, 0, 0, 45, 90, 0], false, true) ∧
    ¬ Spec.WithinAngle 45 90 0 := by
  obtain ⟨c, hc, ht⟩ := ok_of_test (mkConstraints (exRepairArgs false 2)) (fun (c : Cons) => decide (
    Repairable c (.rule 1) [45, 90, 45, 0, 0, 0, 0] [] ∧
    repairDisoContig c (.rule 1) 1 [45, 90, 45, 0, 0, 0, 0] [] = .ok ([0, 45, 0, 0, 45, 90, 0], false, true))) (by decide +kernel)
  obtain ⟨h1, h2⟩ := of_decide_eq_true ht
  refine ⟨c, hc, h1, h2, ?_⟩
  rw [← isDiso_iff _ _ _ (by omega) (by omega)]; decide

/-- **C28** violated: with `n_D1 < n_contig` blocks of too many equal plies of asymmetric laminates are
accepted. -/
theorem C28_violation_few_permuted_plies : ∃ c, mkConstraints (exRepairArgs false 2) = .ok c ∧
    Repairable c (.rule 1) [0, 0, 45, 0, 0, 0] [] ∧
    repairDisoContig c (.rule 1) 1 [0, 0, 45, 0, 0, 0] [] = .ok ([0, 0, 0, 45, 0, 0], true, true) ∧
    ¬ Spec.ContigOK 2 [0, 0, 0, 45, 0, 0] := by
  obtain ⟨c, hc, ht⟩ := ok_of_test (mkConstraints (exRepairArgs false 2)) (fun (c : Cons) => decide (
    Repairable c (.rule 1) [0, 0, 45, 0, 0, 0] [] ∧
    repairDisoContig c (.rule 1) 1 [0, 0, 45, 0, 0, 0] [] = .ok ([0, 0, 0, 45, 0, 0], true, true))) (by decide +kernel)
  obtain ⟨h1, h2⟩ := of_decide_eq_true ht
  refine ⟨c, hc, h1, h2, ?_⟩
  intro h; exact h 0 ⟨[], [45, 0, 0], rfl⟩

/-- Case of C27 and C28: a symmetric laminate with a queue, repaired from the inside, with a protected pair of
outer plies (damage tolerance rule 2). -/
example : ∃ c, mkConstraints { exRepairArgs true 3 with damTol := true, damTolRule := 2 } = .ok c ∧
    ContigCons c ∧
    Repairable c (.rule 2) [45, -45, 666, 0, 0, 666, 90, 666, 0, 0, 666, -45, 45] [-45, 45] ∧
    PliesInRange [45, -45, 666, 0, 0, 666, 90, 666, 0, 0, 666, -45, 45] [-45, 45] ∧
    c.diso = true ∧ 0 ≤ c.deltaAngle ∧ c.nContig ≤ 3 + 1 ∧ c.nContig + 2 * nKeptOut c (.rule 2) ≤ 13 ∧
    repairDisoContig c (.rule 2) 3 [45, -45, 666, 0, 0, 666, 90, 666, 0, 0, 666, -45, 45] [-45, 45] =
      .ok ([45, -45, 0, -45, 0, 45, 90, 45, 0, -45, 0, -45, 45], false, true) := by
  obtain ⟨c, hc, ht⟩ := ok_of_test (mkConstraints { exRepairArgs true 3 with damTol := true, damTolRule := 2 }) (fun (c : Cons) => decide (
    ContigCons c ∧
    Repairable c (.rule 2) [45, -45, 666, 0, 0, 666, 90, 666, 0, 0, 666, -45, 45] [-45, 45] ∧
    PliesInRange [45, -45, 666, 0, 0, 666, 90, 666, 0, 0, 666, -45, 45] [-45, 45] ∧
    c.diso = true ∧ 0 ≤ c.deltaAngle ∧ c.nContig ≤ 3 + 1 ∧ c.nContig + 2 * nKeptOut c (.rule 2) ≤ 13 ∧
    repairDisoContig c (.rule 2) 3 [45, -45, 666, 0, 0, 666, 90, 666, 0, 0, 666, -45, 45] [-45, 45] =
      .ok ([45, -45, 0, -45, 0, 45, 90, 45, 0, -45, 0, -45, 45], false, true))) (by decide +kernel)
  exact ⟨c, hc, of_decide_eq_true ht⟩

/-- Case of C27 and C28: an asymmetric laminate with a queue. -/
example : ∃ c, mkConstraints (exRepairArgs false 2) = .ok c ∧
    ContigCons c ∧
    Repairable c (.rule 1) [0, 45, 666, -45, 0, 45, 90, 45, 0, 90] [90] ∧
    PliesInRange [0, 45, 666, -45, 0, 45, 90, 45, 0, 90] [90] ∧
    c.diso = true ∧ c.nContig ≤ 2 ∧
    10 - 2 * (nKeptOut c (.rule 1) - 1) ≠ 4 + min 2 (10 - 2 * nKeptIn c (.rule 1) - 1) + c.nContig ∧
    repairDisoContig c (.rule 1) 2 [0, 45, 666, -45, 0, 45, 90, 45, 0, 90] [90] =
      .ok ([0, 0, -45, 90, 45, 0, 45, 90, 45, 90], false, true) := by
  obtain ⟨c, hc, ht⟩ := ok_of_test (mkConstraints (exRepairArgs false 2)) (fun (c : Cons) => decide (
    ContigCons c ∧
    Repairable c (.rule 1) [0, 45, 666, -45, 0, 45, 90, 45, 0, 90] [90] ∧
    PliesInRange [0, 45, 666, -45, 0, 45, 90, 45, 0, 90] [90] ∧
    c.diso = true ∧ c.nContig ≤ 2 ∧
    10 - 2 * (nKeptOut c (.rule 1) - 1) ≠ 4 + min 2 (10 - 2 * nKeptIn c (.rule 1) - 1) + c.nContig ∧
    repairDisoContig c (.rule 1) 2 [0, 45, 666, -45, 0, 45, 90, 45, 0, 90] [90] =
      .ok ([0, 0, -45, 90, 45, 0, 45, 90, 45, 90], false, true))) (by decide +kernel)
  exact ⟨c, hc, of_decide_eq_true ht⟩

end Bella
