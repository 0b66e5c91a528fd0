import Verif.Model.Membrane
import Verif.Spec.Repair
import Verif.Proofs.Cons
import Verif.Proofs.Monad
import Verif.Proofs.Repair10
import Verif.Proofs.Search
import Verif.Props.Sorting
import Mathlib.Tactic.Linarith
import Mathlib.Tactic.Ring
import Mathlib.Tactic.FieldSimp
/-
Lemmas on the membrane refinement: the sets of angles, the elementary changes and the lists of ply
indices.
-/
namespace Bella

/-- Facts on the angles of a valid constraint object. -/
structure AngleSet (c : Cons) : Prop where
  nodup : c.angles.Nodup
  range : ∀ x ∈ c.angles, -90 < x ∧ x ≤ 90
  neg : ∀ x ∈ c.angles, x ≠ 90 → -x ∈ c.angles
  num : c.nAngles = c.angles.length
  dict : c.indAngles = mkIndAngles c.angles
  pos : c.posAngles = npUnique (c.angles.map (fun x => (x.natAbs : Int)))
  ne : c.angles ≠ []
  ten : c.rule10 = true → (0 : Int) ∈ c.angles ∧ (90 : Int) ∈ c.angles

theorem angleSet_of (a : ConsArgs) (c : Cons) (h : mkConstraints a = .ok c) : AngleSet c := by
  obtain ⟨p, _, _, _, _, h1, h2, h3, h5, h4, _, rfl⟩ := mkConstraints_inv a c h
  refine ⟨nodup_npUnique _, h1, h3, (length_npUnique _).symm, rfl, rfl, ?_, fun h => ⟨(h2 h).1, (h2 h).2.2.1⟩⟩
  intro he
  apply h5
  dsimp only at he
  rw [he]
  rfl

theorem rowOf_iff {c : Cons} (A : AngleSet c) (a : Int) (r : Nat) :
    rowOf c a = .ok r ↔ c.angles[r]? = some a ∨ (a = -90 ∧ c.angles[r]? = some 90) := by
  unfold rowOf
  rw [dictGet_eq_ok, A.dict, lookup_mkIndAngles c.angles A.nodup A.range]

theorem rowOf_mem {c : Cons} (A : AngleSet c) {a : Int} (h : a ∈ c.angles) :
    rowOf c a = .ok (c.angles.idxOf a) := by
  rw [rowOf_iff A]
  left
  rw [List.getElem?_eq_getElem (List.idxOf_lt_length_of_mem h)]
  simp

theorem row_unique {c : Cons} (A : AngleSet c) {r r' : Nat} {a : Int} (h : c.angles[r]? = some a)
    (h' : c.angles[r']? = some a) : r = r' := by
  have h1 := (rowOf_iff A a r).2 (Or.inl h)
  have h2 := (rowOf_iff A a r').2 (Or.inl h')
  rw [h1] at h2
  exact Except.ok.inj h2

theorem idxOf_row {c : Cons} (A : AngleSet c) {r : Nat} {a : Int} (h : c.angles[r]? = some a) :
    c.angles.idxOf a = r := by
  have h1 := rowOf_mem A (List.mem_of_getElem? h)
  have h2 := (rowOf_iff A a r).2 (Or.inl h)
  rw [h1] at h2
  exact Except.ok.inj h2

theorem posAngles_mem {c : Cons} (A : AngleSet c) {a : Int} (h : a ∈ c.posAngles) :
    a ∈ c.angles ∧ 0 ≤ a ∧ partner a ∈ c.angles := by
  rw [A.pos, mem_npUnique] at h
  obtain ⟨x, hx, rfl⟩ := List.mem_map.1 h
  have hr := A.range x hx
  unfold partner
  rcases lt_or_ge x 0 with hn | hp
  · have e : (x.natAbs : Int) = -x := by omega
    rw [e]
    refine ⟨A.neg x hx (by omega), by omega, ?_⟩
    rw [if_neg (by omega)]
    simpa using hx
  · have e : (x.natAbs : Int) = x := by omega
    rw [e]
    refine ⟨hx, by omega, ?_⟩
    split_ifs with h9
    · rw [h9] at hx; exact hx
    · exact A.neg x hx h9

theorem rowOf_neg_partner {c : Cons} (A : AngleSet c) {a : Int} {r : Nat} (ha : a ∈ c.posAngles)
    (h : rowOf c (-a) = .ok r) : c.angles[r]? = some (partner a) := by
  have hp := posAngles_mem A ha
  rcases (rowOf_iff A _ _).1 h with h | ⟨h, h2⟩
  · have := A.range _ (List.mem_of_getElem? h)
    unfold partner
    rw [if_neg (by omega)]
    exact h
  · have : a = 90 := by omega
    unfold partner
    rw [if_pos this]
    exact h2

theorem rowOf_pos {c : Cons} (A : AngleSet c) {a : Int} {r : Nat} (ha : 0 ≤ a)
    (h : rowOf c a = .ok r) : c.angles[r]? = some a := by
  rcases (rowOf_iff A _ _).1 h with h | ⟨h, h2⟩
  · exact h
  · omega

/-! Indices of the plies which may be changed. -/

theorem flexMix_perm {α : Type} (a b : List α) : (flexMix a b).Perm (a ++ b) := by
  induction a generalizing b with
  | nil => simp [flexMix]
  | cons x a ih =>
    cases b with
    | nil => simp [flexMix]
    | cons y b =>
      simp only [flexMix, List.cons_append]
      refine List.Perm.cons _ ?_
      refine ((ih b).cons y).trans ?_
      exact (List.perm_middle).symm

/-- The indices of the plies which may be changed: those of the first half (symmetric laminates) or of
the laminate at least `m` plies away from the faces. -/
structure IndOk (sym : Bool) (m n : Nat) (ind : List Nat) : Prop where
  nodup : ind.Nodup
  lo : ∀ i ∈ ind, m ≤ i
  hi : ∀ i ∈ ind, i + m < n
  half : sym = true → ∀ i ∈ ind, i < n / 2

theorem indices1_ok (c : Cons) (attr : DamTolAttr) (pA : ℚ) (n : Nat) :
    IndOk c.sym (memProtected c attr pA n) n (indices1 c attr pA n) := by
  have h1 : ∀ i, i ∈ ((List.range (n / 2)).drop (memProtected c attr pA n)).reverse →
      memProtected c attr pA n ≤ i ∧ i < n / 2 := by
    intro i hi
    rw [List.mem_reverse, List.mem_iff_getElem?] at hi
    obtain ⟨j, hj⟩ := hi
    rw [List.getElem?_drop, List.getElem?_eq_some_iff] at hj
    obtain ⟨hj1, hj2⟩ := hj
    simp at hj1 hj2
    omega
  have h2 : ∀ i, i ∈ (List.range (n - memProtected c attr pA n)).drop (n / 2) →
      n / 2 ≤ i ∧ i < n - memProtected c attr pA n := by
    intro i hi
    rw [List.mem_iff_getElem?] at hi
    obtain ⟨j, hj⟩ := hi
    rw [List.getElem?_drop, List.getElem?_eq_some_iff] at hj
    obtain ⟨hj1, hj2⟩ := hj
    simp at hj1 hj2
    omega
  have n1 : ((List.range (n / 2)).drop (memProtected c attr pA n)).reverse.Nodup :=
    List.nodup_reverse.2 ((List.drop_sublist _ _).nodup List.nodup_range)
  have n2 : ((List.range (n - memProtected c attr pA n)).drop (n / 2)).Nodup :=
    (List.drop_sublist _ _).nodup List.nodup_range
  unfold indices1
  dsimp only
  generalize ((List.range (n / 2)).drop (memProtected c attr pA n)).reverse = l1 at *
  generalize (List.range (n - memProtected c attr pA n)).drop (n / 2) = l2 at *
  generalize memProtected c attr pA n = m at *
  cases hs : c.sym
  · rw [if_neg (by simp)]
    have hp := flexMix_perm l2 l1
    refine ⟨?_, ?_, ?_, by simp⟩
    · rw [hp.nodup_iff, List.nodup_append']
      refine ⟨n2, n1, ?_⟩
      intro i h3 h4
      have := h1 i h4; have := h2 i h3; omega
    · intro i hi
      rcases List.mem_append.1 (hp.mem_iff.1 hi) with h | h
      · have := h2 i h; omega
      · exact (h1 i h).1
    · intro i hi
      rcases List.mem_append.1 (hp.mem_iff.1 hi) with h | h
      · have := h2 i h; omega
      · have := h1 i h; omega
  · rw [if_pos rfl]
    exact ⟨n1, fun i hi => (h1 i hi).1, fun i hi => by have := h1 i hi; omega, fun _ i hi => (h1 i hi).2⟩

/-! The elementary change of one ply. -/

/-- The plies to be designed: one half for symmetric laminates (without the middle ply). -/
def designHalf (sym : Bool) (ss : Stack) : Stack := if sym then ss.take (ss.length / 2) else ss

/-- The plies to be designed, those of the queue included. -/
def designAll (sym : Bool) (ss : Stack) (q : List Int) : List Int :=
  Spec.knownPlies (designHalf sym ss) ++ q

theorem setPly_length (sym : Bool) (ss : Stack) (i : Nat) (a : Int) : (setPly sym ss i a).length = ss.length := by
  unfold setPly
  cases sym <;> simp

theorem setPly_nth (sym : Bool) (ss : Stack) (i j : Nat) (a : Int) (hi : i < ss.length) (hj : j < ss.length) :
    nth (setPly sym ss i a) j = if j = i ∨ (sym = true ∧ j = ss.length - i - 1) then a else nth ss j := by
  unfold setPly
  cases sym
  · simp only [Bool.false_eq_true, if_false, false_and, or_false]
    rw [nth_set _ _ _ _ hj]
    simp only [eq_comm]
  · simp only [if_true, true_and]
    rw [nth_set _ _ _ _ (by simpa using hj), nth_set _ _ _ _ hi, nth_set _ _ _ _ hj, if_pos rfl]
    simp only [List.length_set]
    by_cases h1 : ss.length - i - 1 = j
    · rw [if_pos h1, if_pos (Or.inr h1.symm)]
    · rw [if_neg h1]
      by_cases h2 : i = j
      · rw [if_pos h2, if_pos (Or.inl h2.symm)]
      · rw [if_neg h2, if_neg (by omega)]

theorem count_set_add (l : List Int) (i : Nat) (b x : Int) (hi : i < l.length) :
    (l.set i b).count x + (if x = nth l i then 1 else 0) = l.count x + (if x = b then 1 else 0) := by
  induction l generalizing i with
  | nil => simp at hi
  | cons y l ih =>
    cases i with
    | zero =>
      simp only [List.set_cons_zero, List.count_cons, nth, List.getD_cons_zero, beq_iff_eq]
      simp only [eq_comm (a := x)]
      omega
    | succ i =>
      have e : nth (y :: l) (i + 1) = nth l i := by simp [nth]
      rw [e]
      simp only [List.set_cons_succ, List.count_cons, beq_iff_eq]
      have := ih i (by simpa using hi)
      omega

theorem designHalf_setPly (sym : Bool) (ss : Stack) (i : Nat) (a : Int)
    (h : sym = true → i < ss.length / 2) : designHalf sym (setPly sym ss i a) = (designHalf sym ss).set i a := by
  unfold designHalf
  cases sym
  · simp [setPly]
  · simp only [if_true, setPly_length]
    unfold setPly
    simp only [if_true]
    have := h rfl
    rw [List.take_set, List.take_set]
    rw [List.set_eq_of_length_le]
    simp
    omega

theorem count_known_of_ne (l : List Int) (x : Int) (h : x ≠ 666) : (Spec.knownPlies l).count x = l.count x := by
  unfold Spec.knownPlies
  rw [List.count_filter]
  simpa using h

theorem not_mem_known (l : List Int) : (666 : Int) ∉ Spec.knownPlies l := by
  unfold Spec.knownPlies
  simp

theorem designAll_count (sym : Bool) (ss : Stack) (q : List Int) (x : Int) (h : x ≠ 666) :
    (designAll sym ss q).count x = (designHalf sym ss).count x + q.count x := by
  unfold designAll
  rw [List.count_append, count_known_of_ne _ _ h]

theorem nth_designHalf (sym : Bool) (ss : Stack) (i : Nat) (h : sym = true → i < ss.length / 2) :
    nth (designHalf sym ss) i = nth ss i := by
  unfold designHalf
  cases sym
  · simp
  · simp only [if_true, nth]
    have := h rfl
    simp only [List.getD_eq_getElem?_getD]
    rw [List.getElem?_take_of_lt this]

/-- What changing plies of orientations `F` into orientations `T` does; `ok i` tells whether ply `i` (of
the first half for symmetric laminates) may be changed. -/
structure PlyChanges (sym : Bool) (ok : Nat → Prop) (ss : Stack) (q : List Int) (ss' : Stack) (q' : List Int)
    (F T : List Int) : Prop where
  len : ss'.length = ss.length
  qlen : q'.length = q.length
  same : ∀ i, i < ss.length → ¬ ok i → ¬ (sym = true ∧ ok (ss.length - i - 1)) → nth ss' i = nth ss i
  mark : ∀ i, i < ss.length → (nth ss' i = 666 ↔ nth ss i = 666)
  symm : sym = true → Spec.Symmetric ss'
  cnt : ∀ x, (designAll sym ss' q').count x + F.count x = (designAll sym ss q).count x + T.count x

theorem PlyChanges.trans {sym : Bool} {ok : Nat → Prop} {ss ss1 ss2 : Stack} {q q1 q2 : List Int}
    {F T F' T' : List Int} (h : PlyChanges sym ok ss q ss1 q1 F T) (h' : PlyChanges sym ok ss1 q1 ss2 q2 F' T') :
    PlyChanges sym ok ss q ss2 q2 (F ++ F') (T ++ T') := by
  have hl := h.len
  refine ⟨h'.len.trans h.len, h'.qlen.trans h.qlen, ?_, ?_, h'.symm, ?_⟩
  · intro i hi h1 h2
    rw [h'.same i (by omega) h1 (by rw [hl]; exact h2), h.same i hi h1 h2]
  · intro i hi
    rw [h'.mark i (by omega), h.mark i hi]
  · intro x
    have := h.cnt x
    have := h'.cnt x
    rw [List.count_append, List.count_append]
    omega

theorem PlyChanges.refl {sym : Bool} {ok : Nat → Prop} {ss : Stack} {q : List Int}
    (h : sym = true → Spec.Symmetric ss) : PlyChanges sym ok ss q ss q [] [] :=
  ⟨rfl, rfl, fun _ _ _ _ => rfl, fun _ _ => Iff.rfl, h, fun _ => rfl⟩

theorem PlyChanges.perm {sym : Bool} {ok : Nat → Prop} {ss ss' : Stack} {q q' : List Int}
    {F T : List Int} (h : PlyChanges sym ok ss q ss' q' F T) :
    (designAll sym ss' q' ++ F).Perm (designAll sym ss q ++ T) := by
  rw [List.perm_iff_count]
  intro x
  rw [List.count_append, List.count_append]
  exact h.cnt x

theorem changePly_spec (sym : Bool) (ind : List Nat) (m : Nat) (ss ss' : Stack) (q q' : List Int) (p : Nat) (a b : Int)
    (hind : IndOk sym m ss.length ind) (hsy : sym = true → Spec.Symmetric ss) (ha : a ≠ 666) (hb : b ≠ 666)
    (hp : p = 6666 ∨ (p ∈ ind ∧ nth ss p = a))
    (h : changePly sym ss q p a b = .ok (ss', q')) :
    PlyChanges sym (fun i => i ∈ ind) ss q ss' q' [a] [b] := by
  unfold changePly at h
  split_ifs at h with h6 hq
  · simp only [Except.ok.injEq, Prod.mk.injEq] at h
    obtain ⟨rfl, rfl⟩ := h
    refine ⟨rfl, ?_, fun _ _ _ _ => rfl, fun _ _ => Iff.rfl, hsy, ?_⟩
    · rw [List.length_append, List.length_erase_of_mem hq]
      have := List.length_pos_of_mem hq
      simp; omega
    · intro x
      simp only [List.count_singleton, beq_iff_eq]
      unfold designAll
      simp only [List.count_append, List.count_erase, List.count_cons, List.count_nil, beq_iff_eq]
      have : 0 < q.count a := List.count_pos_iff.2 hq
      by_cases hx : x = a
      · subst hx
        simp only [eq_comm (a := b)]
        simp
        omega
      · simp only [eq_comm (a := b), eq_comm (a := a), hx, if_false]
        omega
  · simp only [Except.ok.injEq, Prod.mk.injEq] at h
    obtain ⟨rfl, rfl⟩ := h
    obtain ⟨hp, hpa⟩ := hp.resolve_left h6
    have hpn : p < ss.length := by have := hind.hi p hp; omega
    have hph : sym = true → p < ss.length / 2 := fun h => hind.half h p hp
    refine ⟨setPly_length _ _ _ _, rfl, ?_, ?_, ?_, ?_⟩
    · intro i hi h1 h2
      rw [setPly_nth _ _ _ _ _ hpn hi, if_neg]
      rintro (rfl | ⟨hs, rfl⟩)
      · exact h1 hp
      · apply h2
        refine ⟨hs, ?_⟩
        have : ss.length - (ss.length - p - 1) - 1 = p := by omega
        rw [this]; exact hp
    · intro i hi
      rw [setPly_nth _ _ _ _ _ hpn hi]
      split_ifs with hc
      · have e : nth ss i = a := by
          rcases hc with rfl | ⟨hs, rfl⟩
          · exact hpa
          · have := (symmetric_iff_nth ss).1 (hsy hs) p hpn
            rw [← hpa, ← this]
            congr 1
            omega
        rw [e]
        exact ⟨fun h => absurd h hb, fun h => absurd h ha⟩
      · exact Iff.rfl
    · intro hsym
      have hs := (symmetric_iff_nth ss).1 (hsy hsym)
      rw [symmetric_iff_nth]
      rw [setPly_length]
      intro i hi
      rw [setPly_nth _ _ _ _ _ hpn hi, setPly_nth _ _ _ _ _ hpn (by omega), hs i hi]
      have : (ss.length - 1 - i = p ∨ sym = true ∧ ss.length - 1 - i = ss.length - p - 1) ↔
        (i = p ∨ sym = true ∧ i = ss.length - p - 1) := by
        simp only [hsym, true_and]
        omega
      simp only [this]
    · intro x
      simp only [List.count_singleton, beq_iff_eq, eq_comm (a := a), eq_comm (a := b)]
      have hl : p < (designHalf sym ss).length := by
        unfold designHalf
        cases sym
        · simpa using hpn
        · have := hph rfl
          simp; omega
      have h1 := count_set_add (designHalf sym ss) p b x hl
      rw [nth_designHalf _ _ _ hph, hpa] at h1
      by_cases hx : x = 666
      · subst hx
        unfold designAll
        rw [List.count_append, List.count_append, List.count_eq_zero.2 (not_mem_known _),
          List.count_eq_zero.2 (not_mem_known _), if_neg (Ne.symm ha), if_neg (Ne.symm hb)]
      · rw [designAll_count _ _ _ _ hx, designAll_count _ _ _ _ hx, designHalf_setPly _ _ _ _ hph]
        omega

end Bella
