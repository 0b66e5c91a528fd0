import Verif.Proofs.Flexural
import Verif.Proofs.RepairSymIn
/-
The steps of the flexural repair by moves of plies.
-/
namespace Bella

/-- Number of plies protected on each face. -/
def keptPlies (c : Cons) (attr : DamTolAttr) : Nat :=
  if c.damTol then (if attr.twoPlies then 2 else 1) else 0

/-! ### the positions visited -/

theorem flexMix_getElem? {α : Type} : ∀ (A B : List α), B.length ≤ A.length → A.length ≤ B.length + 1 →
    ∀ i, (flexMix A B)[i]? = if i % 2 = 0 then A[i / 2]? else B[i / 2]? := by
  intro A
  induction A with
  | nil =>
    intro B h1 h2 i
    have hB : B = [] := List.eq_nil_of_length_eq_zero (by simpa using h1)
    subst hB
    simp [flexMix]
  | cons x A ih =>
    intro B h1 h2 i
    cases B with
    | nil =>
      have hA : A = [] := List.eq_nil_of_length_eq_zero (by simp only [List.length_cons, List.length_nil] at h2; omega)
      subst hA
      match i with
      | 0 => rfl
      | i + 1 =>
        have h2 : ([x] : List α)[(i + 1) / 2]? = if (i + 1) / 2 = 0 then some x else none := by
          cases h : (i + 1) / 2 <;> simp
        simp only [flexMix, List.getElem?_cons_succ, List.getElem?_nil, h2]
        split_ifs <;> first | rfl | omega
    | cons y B =>
      match i with
      | 0 => rfl
      | 1 => rfl
      | i + 2 =>
        simp only [flexMix, List.getElem?_cons_succ]
        rw [ih B (by simpa using h1) (by simpa using h2) i]
        rw [show (i + 2) % 2 = i % 2 by omega, show (i + 2) / 2 = i / 2 + 1 by omega]
        simp

theorem flexMix_length {α : Type} : ∀ (A B : List α), (flexMix A B).length = A.length + B.length := by
  intro A
  induction A with
  | nil => intro B; simp [flexMix]
  | cons x A ih =>
    intro B
    cases B with
    | nil => simp [flexMix]
    | cons y B => simp [flexMix, ih]; omega

theorem flexInd_length (n : Nat) (c : Cons) (attr : DamTolAttr) :
    (flexInd n c attr).length = if c.sym then n / 2 - keptPlies c attr else n - 2 * keptPlies c attr := by
  unfold flexInd keptPlies
  by_cases hs : c.sym = true
  · simp only [hs, if_true, List.length_drop, List.length_range]
  · simp only [hs]
    split_ifs <;> simp [flexMix_length, slice] <;> omega

/-- The position number `index`: from the outside to the middle, for an asymmetric laminate alternating
between the two faces. -/
theorem flexInd_getElem? (n : Nat) (c : Cons) (attr : DamTolAttr) (index : Nat)
    (h : index < (flexInd n c attr).length) :
    (flexInd n c attr)[index]? = some (if c.sym then keptPlies c attr + index
      else if index % 2 = 0 then n - 1 - keptPlies c attr - index / 2 else keptPlies c attr + index / 2) := by
  rw [flexInd_length] at h
  unfold flexInd
  by_cases hs : c.sym = true
  · simp only [hs, if_true] at h ⊢
    rw [List.getElem?_drop]
    unfold keptPlies at h ⊢
    rw [List.getElem?_range (by omega)]
  · simp only [hs] at h ⊢
    simp only [Bool.false_eq_true, if_false] at h ⊢
    have key : ∀ i, i < n → (flexMix (slice (List.range n) (n / 2) n).reverse
        (slice (List.range n) 0 (n / 2)))[i]? = some (if i % 2 = 0 then n - 1 - i / 2 else i / 2) := by
      intro i hi
      rw [flexMix_getElem? _ _ (by simp [slice]; omega) (by simp [slice]; omega)]
      split_ifs with h0
      · rw [List.getElem?_reverse (by simp [slice]; omega), slice_getElem?, slice_length _ _ _ (by simp),
          if_pos (by omega), List.getElem?_range (by omega)]
        congr 1
        omega
      · rw [slice_getElem?, if_pos (by omega), List.getElem?_range (by omega)]
        simp
    unfold keptPlies at h ⊢
    split_ifs at h ⊢ with h1 h2 h3 h4 h5 <;>
      (first | rw [List.getElem?_drop] | skip) <;> rw [key _ (by omega)] <;> congr 1 <;>
      (first | rw [if_pos (by omega)] | rw [if_neg (by omega)]) <;> omega

/-- A move the repair may make in a laminate of `n` plies. -/
def ValidMove (n k : Nat) (sym even : Bool) (i1 i2 : Nat) : Prop :=
  if sym = false ∧ even = true then k ≤ i2 ∧ i2 < i1 ∧ i1 + k < n
  else k ≤ i1 ∧ i1 < i2 ∧ (if sym then i2 < n / 2 else i2 + k < n)

theorem flexInd_valid {n : Nat} {c : Cons} {attr : DamTolAttr} {i j i1 i2 : Nat}
    (h1 : (flexInd n c attr)[i]? = some i1) (h2 : (flexInd n c attr)[j]? = some i2) (hij : i < j) :
    ValidMove n (keptPlies c attr) c.sym (decide (i % 2 = 0)) i1 i2 := by
  have l1 : i < (flexInd n c attr).length := by
    by_contra hc; rw [List.getElem?_eq_none (by omega)] at h1; cases h1
  have l2 : j < (flexInd n c attr).length := by
    by_contra hc; rw [List.getElem?_eq_none (by omega)] at h2; cases h2
  rw [flexInd_getElem? n c attr i l1] at h1
  rw [flexInd_getElem? n c attr j l2] at h2
  rw [flexInd_length] at l1 l2
  simp only [Option.some.injEq] at h1 h2
  unfold ValidMove
  rcases hs : c.sym with _ | _
  rotate_left
  · simp only [hs, if_true] at *
    simp only [Bool.true_eq_false, false_and, if_false]
    omega
  · simp only [hs, Bool.false_eq_true, if_false] at *
    by_cases he : i % 2 = 0
    · rw [if_pos he] at h1
      simp only [he, decide_true, and_self, if_true]
      split_ifs at h2 <;> omega
    · rw [if_neg he] at h1
      simp only [he, decide_false, Bool.false_eq_true, and_false, if_false]
      split_ifs at h2 <;> omega

/-! ### one move -/

/-- The move of the ply `i2` next to the outside, at the position `i1`. -/
def movePly {α : Type} (sym even : Bool) (l : List α) (i1 i2 : Nat) : List α :=
  if sym = false ∧ even = true then moveDown l i2 i1 else moveUp l i1 i2

/-- The complete laminate corresponding to the array `ss` during the repair. -/
def effOf (sym : Bool) (ss : Stack) : Stack :=
  if sym then fullOf (middleOf ss) (ss.take (ss.length / 2)) else ss

theorem middleOf_le (ss : Stack) : (middleOf ss).length ≤ 1 := by
  rw [middleOf_length]; omega

theorem effOf_length (sym : Bool) (ss : Stack) : (effOf sym ss).length = ss.length := by
  unfold effOf
  split_ifs
  · rw [fullOf_length, middleOf_length, List.length_take]; omega
  · rfl

theorem flexMirror_eq (ss m : Stack) : flexMirror ss m = fullOf (middleOf ss) m := by
  unfold flexMirror fullOf middleOf
  split_ifs <;> simp

theorem ValidMove.perm {α : Type} {n k : Nat} {sym even : Bool} {i1 i2 : Nat} (h : ValidMove n k sym even i1 i2)
    (l : List α) : (movePly sym even l i1 i2).Perm l := by
  unfold ValidMove at h
  unfold movePly
  split_ifs at h ⊢
  · exact moveDown_perm _ _ _ (by omega)
  · exact moveUp_perm _ _ _ (by omega)
  · exact moveUp_perm _ _ _ (by omega)

theorem ValidMove.length {α : Type} {n k : Nat} {sym even : Bool} {i1 i2 : Nat} (h : ValidMove n k sym even i1 i2)
    (l : List α) : (movePly sym even l i1 i2).length = l.length := (h.perm l).length_eq

theorem take_of_getElem? {α : Type} {l m : List α} {k : Nat} (h : ∀ i, i < k → l[i]? = m[i]?) :
    l.take k = m.take k := by
  apply List.ext_getElem?
  intro i
  rw [List.getElem?_take, List.getElem?_take]
  split_ifs with h1
  · exact h i h1
  · rfl

theorem drop_of_getElem? {α : Type} {l m : List α} {k : Nat} (h : ∀ i, k ≤ i → l[i]? = m[i]?) :
    l.drop k = m.drop k := by
  apply List.ext_getElem?
  intro i
  rw [List.getElem?_drop, List.getElem?_drop]
  exact h _ (by omega)

theorem ValidMove.take {α : Type} {n k : Nat} {sym even : Bool} {i1 i2 : Nat} (h : ValidMove n k sym even i1 i2)
    (l : List α) (hl : l.length = n) : (movePly sym even l i1 i2).take k = l.take k := by
  unfold ValidMove at h
  unfold movePly
  apply take_of_getElem?
  intro i hi
  split_ifs at h ⊢
  · rw [moveDown_getElem? _ _ _ _ (by omega) (by omega), if_pos (by omega)]
  · rw [moveUp_getElem? _ _ _ _ (by omega) (by omega), if_pos (by omega)]
  · rw [moveUp_getElem? _ _ _ _ (by omega) (by omega), if_pos (by omega)]

theorem ValidMove.drop {α : Type} {n k : Nat} {sym even : Bool} {i1 i2 : Nat} (h : ValidMove n k sym even i1 i2)
    (l : List α) (hl : l.length = n) (m : Nat) (hm : if sym then n / 2 ≤ m else n ≤ m + k) :
    (movePly sym even l i1 i2).drop m = l.drop m := by
  unfold ValidMove at h
  unfold movePly
  apply drop_of_getElem?
  intro i hi
  by_cases hs : sym = true
  · subst hs
    simp only [Bool.true_eq_false, false_and, if_false, if_true] at h hm ⊢
    rw [moveUp_getElem? _ _ _ _ (by omega) (by omega), if_neg (by omega), if_neg (by omega), if_neg (by omega)]
  · rw [Bool.not_eq_true] at hs
    subst hs
    simp only [true_and, Bool.false_eq_true, if_false] at h hm ⊢
    split_ifs at h ⊢
    · rw [moveDown_getElem? _ _ _ _ (by omega) (by omega), if_neg (by omega), if_neg (by omega), if_neg (by omega)]
    · rw [moveUp_getElem? _ _ _ _ (by omega) (by omega), if_neg (by omega), if_neg (by omega), if_neg (by omega)]

/-- The plies the repair works with. -/
def workOf {α : Type} (sym : Bool) (l : List α) : List α := if sym then l.take (l.length / 2) else l

theorem ValidMove.work {α : Type} {n k : Nat} {sym even : Bool} {i1 i2 : Nat} (h : ValidMove n k sym even i1 i2)
    (l : List α) (hl : l.length = n) : workOf sym (movePly sym even l i1 i2) = movePly sym even (workOf sym l) i1 i2 := by
  have h' := h
  unfold ValidMove at h
  unfold workOf
  rw [h'.length]
  by_cases hs : sym = true
  · subst hs
    unfold movePly
    simp only [Bool.true_eq_false, false_and, if_false, if_true] at h ⊢
    exact moveUp_take _ _ _ _ (by omega) (by omega) (by omega)
  · simp [hs]

theorem movePly_map {α β : Type} (f : α → β) (sym even : Bool) (l : List α) (i1 i2 : Nat) :
    (movePly sym even l i1 i2).map f = movePly sym even (l.map f) i1 i2 := by
  unfold movePly
  split_ifs
  · exact moveDown_map _ _ _ _
  · exact moveUp_map _ _ _ _

end Bella
