import Verif.Model.Flexural
import Verif.Proofs.RepairWindows
import Verif.Proofs.Search
import Verif.Proofs.Sums
import Verif.Proofs.Monad
import Verif.Spec.Lampam
/-
Lemmas for the flexural repair.
-/
namespace Bella

/-! ### moving an entry of a list -/

theorem slice_getElem? {α : Type} (l : List α) (a b i : Nat) :
    (slice l a b)[i]? = if a + i < b then l[a + i]? else none := by
  unfold slice
  rw [List.getElem?_drop, List.getElem?_take]

theorem slice_length {α : Type} (l : List α) (a b : Nat) (hb : b ≤ l.length) :
    (slice l a b).length = b - a := by
  unfold slice
  simp [hb]

theorem moveUp_length {α : Type} (l : List α) (a b : Nat) (hab : a ≤ b) (hb : b < l.length) :
    (moveUp l a b).length = l.length := by
  unfold moveUp
  simp only [List.length_append, slice_length l b (b + 1) (by omega), slice_length l a b (by omega),
    List.length_take, List.length_drop]
  omega

theorem moveDown_length {α : Type} (l : List α) (a b : Nat) (hab : a ≤ b) (hb : b < l.length) :
    (moveDown l a b).length = l.length := by
  unfold moveDown
  simp only [List.length_append, slice_length l (a + 1) (b + 1) (by omega),
    slice_length l a (a + 1) (by omega), List.length_take, List.length_drop]
  omega

theorem moveUp_getElem? {α : Type} (l : List α) (a b i : Nat) (hab : a ≤ b) (hb : b < l.length) :
    (moveUp l a b)[i]? = if i < a then l[i]? else if i = a then l[b]? else if i ≤ b then l[i - 1]?
      else l[i]? := by
  unfold moveUp
  simp only [List.getElem?_append, List.length_append, slice_length l b (b + 1) (by omega),
    slice_length l a b (by omega), List.length_take, List.getElem?_take, slice_getElem?, List.getElem?_drop]
  split_ifs <;> first | omega | rfl | (congr 1; omega)

theorem moveDown_getElem? {α : Type} (l : List α) (a b i : Nat) (hab : a ≤ b) (hb : b < l.length) :
    (moveDown l a b)[i]? = if i < a then l[i]? else if i < b then l[i + 1]? else if i = b then l[a]?
      else l[i]? := by
  unfold moveDown
  simp only [List.getElem?_append, List.length_append, slice_length l (a + 1) (b + 1) (by omega),
    slice_length l a (a + 1) (by omega), List.length_take, List.getElem?_take, slice_getElem?, List.getElem?_drop]
  split_ifs <;> first | omega | rfl | (congr 1; omega)

theorem moveUp_moveDown {α : Type} (l : List α) (a b : Nat) (hab : a ≤ b) (hb : b < l.length) :
    moveUp (moveDown l a b) a b = l := by
  have hl := moveDown_length l a b hab hb
  apply List.ext_getElem?
  intro i
  rw [moveUp_getElem? _ a b i hab (by omega)]
  simp only [moveDown_getElem? l a b _ hab hb]
  split_ifs <;> first | omega | rfl | (congr 1; omega)

theorem moveDown_moveUp {α : Type} (l : List α) (a b : Nat) (hab : a ≤ b) (hb : b < l.length) :
    moveDown (moveUp l a b) a b = l := by
  have hl := moveUp_length l a b hab hb
  apply List.ext_getElem?
  intro i
  rw [moveDown_getElem? _ a b i hab (by omega)]
  simp only [moveUp_getElem? l a b _ hab hb]
  split_ifs <;> first | omega | rfl | (congr 1; omega)

theorem take_append_slice {α : Type} (l : List α) (a b : Nat) (hab : a ≤ b) :
    l.take a ++ slice l a b = l.take b := by
  unfold slice
  conv_rhs => rw [← List.take_append_drop a (l.take b), List.take_take, Nat.min_eq_left hab]

theorem split4 {α : Type} (l : List α) (a b c : Nat) (hab : a ≤ b) (hbc : b ≤ c) :
    l = l.take a ++ (slice l a b ++ (slice l b c ++ l.drop c)) := by
  rw [← List.append_assoc, take_append_slice l a b hab, ← List.append_assoc, take_append_slice l b c hbc,
    List.take_append_drop]

theorem moveUp_perm {α : Type} (l : List α) (a b : Nat) (hab : a ≤ b) : (moveUp l a b).Perm l := by
  have h := split4 l a b (b + 1) hab (by omega)
  unfold moveUp
  conv_rhs => rw [h]
  rw [List.append_assoc, List.append_assoc]
  apply List.Perm.append_left
  rw [← List.append_assoc, ← List.append_assoc]
  exact List.Perm.append_right _ List.perm_append_comm

theorem moveDown_perm {α : Type} (l : List α) (a b : Nat) (hab : a ≤ b) : (moveDown l a b).Perm l := by
  have h := split4 l a (a + 1) (b + 1) (by omega) (by omega)
  unfold moveDown
  conv_rhs => rw [h]
  rw [List.append_assoc, List.append_assoc]
  apply List.Perm.append_left
  rw [← List.append_assoc, ← List.append_assoc]
  exact List.Perm.append_right _ List.perm_append_comm

theorem moveUp_map {α β : Type} (f : α → β) (l : List α) (a b : Nat) :
    (moveUp l a b).map f = moveUp (l.map f) a b := by
  unfold moveUp slice
  simp only [List.map_append, List.map_take, List.map_drop]

theorem moveDown_map {α β : Type} (f : α → β) (l : List α) (a b : Nat) :
    (moveDown l a b).map f = moveDown (l.map f) a b := by
  unfold moveDown slice
  simp only [List.map_append, List.map_take, List.map_drop]

theorem moveUp_take {α : Type} (l : List α) (a b h : Nat) (hab : a ≤ b) (hb : b < h) (hh : h ≤ l.length) :
    (moveUp l a b).take h = moveUp (l.take h) a b := by
  apply List.ext_getElem?
  intro i
  rw [List.getElem?_take, moveUp_getElem? l a b i hab (by omega),
    moveUp_getElem? (l.take h) a b i hab (by simp; omega)]
  simp only [List.getElem?_take]
  split_ifs <;> first | omega | rfl

theorem moveUp_drop {α : Type} (l : List α) (a b h : Nat) (hab : a ≤ b) (hb : b < h) (hh : h ≤ l.length) :
    (moveUp l a b).drop h = l.drop h := by
  apply List.ext_getElem?
  intro i
  rw [List.getElem?_drop, List.getElem?_drop, moveUp_getElem? l a b _ hab (by omega)]
  split_ifs <;> first | omega | rfl

theorem nth_getElem? (ss : Stack) (i : Nat) : nth ss i = (ss[i]?).getD 0 := by
  unfold nth; rw [List.getD_eq_getElem?_getD]

theorem moveUp_nth (l : Stack) (a b i : Nat) (hab : a ≤ b) (hb : b < l.length) :
    nth (moveUp l a b) i = if i < a then nth l i else if i = a then nth l b else if i ≤ b then nth l (i - 1)
      else nth l i := by
  simp only [nth_getElem?, moveUp_getElem? l a b i hab hb]
  split_ifs <;> rfl

theorem moveDown_nth (l : Stack) (a b i : Nat) (hab : a ≤ b) (hb : b < l.length) :
    nth (moveDown l a b) i = if i < a then nth l i else if i < b then nth l (i + 1) else if i = b then nth l a
      else nth l i := by
  simp only [nth_getElem?, moveDown_getElem? l a b i hab hb]
  split_ifs <;> rfl

/-! ### lay-up rules after a move -/

theorem flexDiso_true {c : Cons} {m : Stack} {lo hi : Nat} {below : Option Int} (hr : InRange m)
    (hb : ∀ x, below = some x → -90 ≤ x ∧ x ≤ 90) (h : flexDiso c m lo hi below = true) :
    (0 < lo → Spec.WithinAngle c.deltaAngle (nth m (lo - 1)) (nth m lo)) ∧
    Spec.WithinAngle c.deltaAngle (nth m lo) (nth m (lo + 1)) ∧
    Spec.WithinAngle c.deltaAngle (nth m (hi - 1)) (nth m hi) ∧
    (∀ x, below = some x → Spec.WithinAngle c.deltaAngle (nth m hi) x) := by
  unfold flexDiso at h
  simp only [Bool.and_eq_true] at h
  obtain ⟨⟨⟨h1, h2⟩, h3⟩, h4⟩ := h
  refine ⟨?_, ?_, ?_, ?_⟩
  · intro hlo
    simp only [hlo, decide_true, Bool.true_and, Bool.not_not] at h1
    exact withinAngle_comm ((isDiso_iff _ _ _ (hr.nth _) (hr.nth _)).1 h1)
  · exact (isDiso_iff _ _ _ (hr.nth _) (hr.nth _)).1 h2
  · exact withinAngle_comm ((isDiso_iff _ _ _ (hr.nth _) (hr.nth _)).1 h3)
  · rintro x rfl
    exact (isDiso_iff _ _ _ (hr.nth _) (hb x rfl)).1 h4

/-- Pairs after moving the ply `b` up to `a`. -/
theorem pairs_moveUp {d : Int} {l : Stack} {a b lo hi : Nat} (hab : a < b) (hb : b < l.length) (hlo : lo ≤ a)
    (h : Spec.PairsWithin d l lo hi)
    (t1 : 0 < a → Spec.WithinAngle d (nth (moveUp l a b) (a - 1)) (nth (moveUp l a b) a))
    (t2 : Spec.WithinAngle d (nth (moveUp l a b) a) (nth (moveUp l a b) (a + 1)))
    (t3 : b + 1 < l.length → Spec.WithinAngle d (nth (moveUp l a b) b) (nth (moveUp l a b) (b + 1))) :
    Spec.PairsWithin d (moveUp l a b) lo hi := by
  rw [pairsWithin_iff_nth] at *
  intro i h1 h2 h3
  rw [moveUp_length l a b (by omega) hb] at h3
  rcases Nat.lt_trichotomy (i + 1) a with c1 | c1 | c1
  · rw [moveUp_nth l a b _ (by omega) hb, moveUp_nth l a b _ (by omega) hb, if_pos (by omega), if_pos c1]
    exact h i h1 h2 h3
  · have := t1 (by omega)
    rw [← c1] at this ⊢
    simpa using this
  · rcases Nat.eq_or_lt_of_le (show a ≤ i by omega) with c2 | c2
    · subst c2; exact t2
    · rcases Nat.lt_trichotomy i b with c3 | c3 | c3
      · rw [moveUp_nth l a b _ (by omega) hb, moveUp_nth l a b _ (by omega) hb, if_neg (by omega),
          if_neg (by omega), if_pos (by omega), if_neg (by omega), if_neg (by omega), if_pos (by omega)]
        have := h (i - 1) (by omega) (by omega) (by omega)
        rwa [show i - 1 + 1 = i + 1 - 1 by omega] at this
      · subst c3; exact t3 (by omega)
      · rw [moveUp_nth l a b _ (by omega) hb, moveUp_nth l a b _ (by omega) hb, if_neg (by omega),
          if_neg (by omega), if_neg (by omega), if_neg (by omega), if_neg (by omega), if_neg (by omega)]
        exact h i h1 h2 h3

/-- Pairs after moving the ply `a` down to `b`. -/
theorem pairs_moveDown {d : Int} {l : Stack} {a b lo hi : Nat} (hab : a < b) (hb : b < l.length) (hhi : b ≤ hi)
    (h : Spec.PairsWithin d l lo hi)
    (t1 : 0 < a → Spec.WithinAngle d (nth (moveDown l a b) (a - 1)) (nth (moveDown l a b) a))
    (t2 : Spec.WithinAngle d (nth (moveDown l a b) (b - 1)) (nth (moveDown l a b) b))
    (t3 : b + 1 < l.length → Spec.WithinAngle d (nth (moveDown l a b) b) (nth (moveDown l a b) (b + 1))) :
    Spec.PairsWithin d (moveDown l a b) lo hi := by
  rw [pairsWithin_iff_nth] at *
  intro i h1 h2 h3
  rw [moveDown_length l a b (by omega) hb] at h3
  rcases Nat.lt_trichotomy (i + 1) a with c1 | c1 | c1
  · rw [moveDown_nth l a b _ (by omega) hb, moveDown_nth l a b _ (by omega) hb, if_pos (by omega), if_pos c1]
    exact h i h1 h2 h3
  · have := t1 (by omega)
    rw [← c1] at this ⊢
    simpa using this
  · rcases Nat.lt_trichotomy (i + 1) b with c3 | c3 | c3
    · rw [moveDown_nth l a b _ (by omega) hb, moveDown_nth l a b _ (by omega) hb, if_neg (by omega),
        if_pos (by omega), if_neg (by omega), if_pos (by omega)]
      exact h (i + 1) (by omega) (by omega) (by omega)
    · rw [← c3] at t2 ⊢
      simpa using t2
    · rcases Nat.eq_or_lt_of_le (show b ≤ i by omega) with c2 | c2
      · subst c2; exact t3 (by omega)
      · rw [moveDown_nth l a b _ (by omega) hb, moveDown_nth l a b _ (by omega) hb, if_neg (by omega),
          if_neg (by omega), if_neg (by omega), if_neg (by omega), if_neg (by omega), if_neg (by omega)]
        exact h i h1 h2 h3

/-- The windows of `n + 1` plies between the plies `lo` (included) and `hi` (excluded) are not made of
equal plies. -/
def WindowsOK (n : Nat) (l : Stack) (lo hi : Nat) : Prop :=
  ∀ i, lo ≤ i → i + n < hi → i + n < l.length → ∃ j, j ≤ n ∧ nth l (i + j) ≠ nth l i

theorem nth_slice (l : Stack) (a b i : Nat) (h : a + i < b) : nth (slice l a b) i = nth l (a + i) := by
  rw [nth_getElem?, slice_getElem?, if_pos h, nth_getElem?]

theorem slice_length' {α : Type} (l : List α) (a b : Nat) : (slice l a b).length = min b l.length - a := by
  unfold slice; simp

theorem contigOK_slice_iff (n : Nat) (l : Stack) (a b : Nat) :
    Spec.ContigOK n (slice l a b) ↔ WindowsOK n l a b := by
  rw [contigOK_iff]
  unfold WindowsOK
  rw [slice_length']
  constructor
  · intro h i h1 h2 h3
    obtain ⟨j, hj, hne⟩ := h (i - a) (by omega)
    refine ⟨j, by omega, ?_⟩
    rw [nth_slice _ _ _ _ (by omega), nth_slice _ _ _ _ (by omega)] at hne
    rwa [show a + (i - a + j) = i + j by omega, show a + (i - a) = i by omega] at hne
  · intro h i hi
    obtain ⟨j, hj, hne⟩ := h (a + i) (by omega) (by omega) (by omega)
    refine ⟨j, by omega, ?_⟩
    rw [nth_slice _ _ _ _ (by omega), nth_slice _ _ _ _ (by omega)]
    rwa [show a + (i + j) = a + i + j by omega]

/-- Windows after moving the ply `b` up to `a`: it is enough to look at those with one of these plies. -/
theorem windows_moveUp {n : Nat} {l : Stack} {a b lo hi : Nat} (hab : a < b) (hb : b < l.length) (hlo : lo ≤ a)
    (h : WindowsOK n l lo hi)
    (t1 : WindowsOK n (moveUp l a b) (a - n) (a + n + 1)) (t2 : WindowsOK n (moveUp l a b) (b - n) (b + n + 1)) :
    WindowsOK n (moveUp l a b) lo hi := by
  have hl := moveUp_length l a b (by omega) hb
  intro i h1 h2 h3
  by_cases c1 : i ≤ a ∧ a ≤ i + n
  · exact t1 i (by omega) (by omega) h3
  by_cases c2 : i ≤ b ∧ b ≤ i + n
  · exact t2 i (by omega) (by omega) h3
  rw [hl] at h3
  by_cases c3 : a < i ∧ i < b
  · obtain ⟨j, hj, hne⟩ := h (i - 1) (by omega) (by omega) (by omega)
    refine ⟨j, hj, ?_⟩
    rw [moveUp_nth l a b _ (by omega) hb, moveUp_nth l a b _ (by omega) hb, if_neg (by omega),
      if_neg (by omega), if_pos (by omega), if_neg (by omega), if_neg (by omega), if_pos (by omega)]
    rwa [show i - 1 + j = i + j - 1 by omega] at hne
  · obtain ⟨j, hj, hne⟩ := h i h1 h2 h3
    refine ⟨j, hj, ?_⟩
    rw [moveUp_nth l a b _ (by omega) hb, moveUp_nth l a b _ (by omega) hb]
    split_ifs <;> omega

/-- Windows after moving the ply `a` down to `b`. -/
theorem windows_moveDown {n : Nat} {l : Stack} {a b lo hi : Nat} (hab : a < b) (hb : b < l.length) (hhi : b < hi)
    (h : WindowsOK n l lo hi)
    (t1 : WindowsOK n (moveDown l a b) (a - n) (a + n + 1))
    (t2 : WindowsOK n (moveDown l a b) (b - n) (b + n + 1)) :
    WindowsOK n (moveDown l a b) lo hi := by
  have hl := moveDown_length l a b (by omega) hb
  intro i h1 h2 h3
  by_cases c1 : i ≤ a ∧ a ≤ i + n
  · exact t1 i (by omega) (by omega) h3
  by_cases c2 : i ≤ b ∧ b ≤ i + n
  · exact t2 i (by omega) (by omega) h3
  rw [hl] at h3
  by_cases c3 : a < i ∧ i < b
  · obtain ⟨j, hj, hne⟩ := h (i + 1) (by omega) (by omega) (by omega)
    refine ⟨j, hj, ?_⟩
    rw [moveDown_nth l a b _ (by omega) hb, moveDown_nth l a b _ (by omega) hb, if_neg (by omega),
      if_pos (by omega), if_neg (by omega), if_pos (by omega)]
    rwa [show i + 1 + j = i + j + 1 by omega] at hne
  · obtain ⟨j, hj, hne⟩ := h i h1 h2 h3
    refine ⟨j, hj, ?_⟩
    rw [moveDown_nth l a b _ (by omega) hb, moveDown_nth l a b _ (by omega) hb]
    split_ifs <;> omega

/-- For a symmetric laminate it is enough to look at the windows whose centre is in the first half. -/
theorem windows_sym {n : Nat} {L : Stack} (hs : L.reverse = L) {lo : Nat}
    (h : ∀ i, lo ≤ i → i + (i + n) < L.length → i + n < L.length → ∃ j, j ≤ n ∧ nth L (i + j) ≠ nth L i) :
    WindowsOK n L lo (L.length - lo) := by
  intro i h1 h2 h3
  by_cases c : i + (i + n) < L.length
  · exact h i h1 c h3
  obtain ⟨j, hj, hne⟩ := h (L.length - 1 - (i + n)) (by omega) (by omega) (by omega)
  have key : ∀ x, x < L.length → nth L x = nth L (L.length - 1 - x) := by
    intro x hx
    conv_lhs => rw [← hs]
    rw [nth_reverse _ _ hx]
  rw [key _ (by omega), key (L.length - 1 - (i + n)) (by omega),
    show L.length - 1 - (L.length - 1 - (i + n) + j) = i + (n - j) by omega,
    show L.length - 1 - (L.length - 1 - (i + n)) = i + n by omega] at hne
  by_cases hh : nth L (i + n) = nth L i
  · exact ⟨n - j, by omega, fun e => hne (by rw [e, hh])⟩
  · exact ⟨n, le_refl _, hh⟩

/-! ### symmetric laminates -/

/-- The laminate with the first half `W` and the middle plies `M`. -/
def fullOf (M W : Stack) : Stack := W ++ M ++ W.reverse

theorem fullOf_length (M W : Stack) : (fullOf M W).length = 2 * W.length + M.length := by
  unfold fullOf; simp; omega

theorem fullOf_reverse (M W : Stack) (hM : M.length ≤ 1) : (fullOf M W).reverse = fullOf M W := by
  unfold fullOf
  have : M.reverse = M := by
    match M, hM with
    | [], _ => rfl
    | [x], _ => rfl
  simp [this]

theorem nth_full_left (M W : Stack) (x : Nat) (h : x < W.length) : nth (fullOf M W) x = nth W x := by
  unfold fullOf
  rw [List.append_assoc, nth_left _ _ _ h]

theorem nth_full_mid (M W : Stack) (x : Nat) (h : x < M.length) :
    nth (fullOf M W) (W.length + x) = nth M x := by
  unfold fullOf
  exact nth_mid _ _ _ _ h

theorem nth_full_right (M W : Stack) (x : Nat) (h : W.length + M.length ≤ x) (h2 : x < (fullOf M W).length) :
    nth (fullOf M W) x = nth W ((fullOf M W).length - 1 - x) := by
  rw [fullOf_length] at h2 ⊢
  have e : x = (W ++ M).length + (x - (W.length + M.length)) := by simp; omega
  unfold fullOf
  rw [e, nth_right _ _ _ (by simp; omega), nth_reverse _ _ (by omega)]
  congr 1
  simp; omega

theorem nth_full_moveUp {M W : Stack} {a b x : Nat} (hab : a ≤ b) (hb : b < W.length)
    (hx : b < x) (hx2 : x + b + 1 < (fullOf M W).length) :
    nth (fullOf M (moveUp W a b)) x = nth (fullOf M W) x := by
  have hl := moveUp_length W a b hab hb
  rw [fullOf_length] at hx2
  by_cases c1 : x < W.length
  · rw [nth_full_left _ _ _ (by omega), nth_full_left _ _ _ c1, moveUp_nth W a b _ hab hb]
    split_ifs <;> omega
  · by_cases c2 : x < W.length + M.length
    · have e := nth_full_mid M W (x - W.length) (by omega)
      have e' := nth_full_mid M (moveUp W a b) (x - W.length) (by omega)
      rw [show W.length + (x - W.length) = x by omega] at e
      rw [hl, show W.length + (x - W.length) = x by omega] at e'
      rw [e, e']
    · rw [nth_full_right _ _ _ (by omega) (by rw [fullOf_length]; omega),
        nth_full_right _ _ _ (by omega) (by rw [fullOf_length]; omega), fullOf_length, fullOf_length, hl,
        moveUp_nth W a b _ hab hb]
      split_ifs <;> omega

theorem windows_full_moveUp {n : Nat} {M W : Stack} {a b lo : Nat} (hM : M.length ≤ 1) (hab : a < b)
    (hb : b < W.length) (hlo : lo ≤ a)
    (h : WindowsOK n (fullOf M W) lo ((fullOf M W).length - lo))
    (t1 : WindowsOK n (fullOf M (moveUp W a b)) (a - n) (a + n + 1))
    (t2 : WindowsOK n (fullOf M (moveUp W a b)) (b - n) (b + n + 1)) :
    WindowsOK n (fullOf M (moveUp W a b)) lo ((fullOf M (moveUp W a b)).length - lo) := by
  have hl := moveUp_length W a b (by omega) hb
  have hN := fullOf_length M W
  have hN' := fullOf_length M (moveUp W a b)
  rw [hl] at hN'
  apply windows_sym (fullOf_reverse _ _ hM)
  intro i h1 h2 h3
  by_cases c1 : i ≤ a ∧ a ≤ i + n
  · exact t1 i (by omega) (by omega) h3
  by_cases c2 : i ≤ b ∧ b ≤ i + n
  · exact t2 i (by omega) (by omega) h3
  by_cases c3 : a < i ∧ i < b
  · obtain ⟨j, hj, hne⟩ := h (i - 1) (by omega) (by omega) (by omega)
    refine ⟨j, hj, ?_⟩
    rw [nth_full_left _ _ _ (by omega), nth_full_left _ _ _ (by omega)] at hne ⊢
    rw [moveUp_nth W a b _ (by omega) hb, moveUp_nth W a b _ (by omega) hb, if_neg (by omega),
      if_neg (by omega), if_pos (by omega), if_neg (by omega), if_neg (by omega), if_pos (by omega)]
    rwa [show i - 1 + j = i + j - 1 by omega] at hne
  · obtain ⟨j, hj, hne⟩ := h i h1 (by omega) (by omega)
    refine ⟨j, hj, ?_⟩
    by_cases c4 : i < a
    · rw [nth_full_left _ _ _ (by omega), nth_full_left _ _ _ (by omega)] at hne ⊢
      rw [moveUp_nth W a b _ (by omega) hb, moveUp_nth W a b _ (by omega) hb, if_pos (by omega),
        if_pos (by omega)]
      exact hne
    · rw [nth_full_moveUp (by omega) hb (by omega) (by omega),
        nth_full_moveUp (by omega) hb (by omega) (by omega)]
      exact hne

theorem withinAngle_self_nonneg {d a : Int} (h : Spec.WithinAngle d a a) : 0 ≤ d := by
  obtain ⟨k, hk⟩ := h
  exact le_trans (abs_nonneg _) hk

theorem pairs_full_moveUp {d : Int} {M W : Stack} {a b lo : Nat} (hM : M.length ≤ 1) (hab : a < b)
    (hb : b < W.length) (hlo : lo ≤ a)
    (h : Spec.PairsWithin d (fullOf M W) lo ((fullOf M W).length - 1 - lo))
    (t1 : 0 < a → Spec.WithinAngle d (nth (moveUp W a b) (a - 1)) (nth (moveUp W a b) a))
    (t2 : Spec.WithinAngle d (nth (moveUp W a b) a) (nth (moveUp W a b) (a + 1)))
    (t3 : b + 1 < W.length → Spec.WithinAngle d (nth (moveUp W a b) b) (nth (moveUp W a b) (b + 1)))
    (t4 : b + 1 = W.length → ∀ x, M = [x] → Spec.WithinAngle d (nth (moveUp W a b) b) x) :
    Spec.PairsWithin d (fullOf M (moveUp W a b)) lo ((fullOf M (moveUp W a b)).length - 1 - lo) := by
  have hl := moveUp_length W a b (by omega) hb
  have hN := fullOf_length M W
  rw [pairsWithin_iff_nth] at h
  have hW : Spec.PairsWithin d W lo (W.length - 1) := by
    rw [pairsWithin_iff_nth]
    intro i h1 h2 h3
    have := h i h1 (by omega) (by omega)
    rwa [nth_full_left _ _ _ (by omega), nth_full_left _ _ _ (by omega)] at this
  unfold fullOf
  refine pairsWithin_mirror (moveUp W a b) M lo hM ?_ ?_
  · rw [hl]
    exact pairs_moveUp hab hb hlo hW t1 t2 t3
  · have hlast : (moveUp W a b).drop ((moveUp W a b).length - 1) = [nth (moveUp W a b) (W.length - 1)] := by
      rw [hl]
      apply List.ext_getElem
      · simp; omega
      · intro i h1 h2
        simp at h2
        subst h2
        simp only [List.getElem_drop, List.getElem_cons_zero, Nat.add_zero]
        rw [nth_eq_getElem _ _ (by omega)]
    rw [hlast]
    have key : ∀ x, M = [x] → Spec.WithinAngle d (nth (moveUp W a b) (W.length - 1)) x := by
      intro x hx
      by_cases c : b + 1 = W.length
      · have := t4 c x hx
        rwa [show W.length - 1 = b by omega]
      · have hml : M.length = 1 := by rw [hx]; rfl
        have := h (W.length - 1) (by omega) (by omega) (by omega)
        have e := nth_full_mid M W 0 (by omega)
        rw [nth_full_left _ _ _ (by omega), show W.length - 1 + 1 = W.length + 0 by omega, e, hx] at this
        rw [moveUp_nth W a b _ (by omega) hb, if_neg (by omega), if_neg (by omega), if_neg (by omega)]
        exact this
    match M, hM with
    | [], _ =>
      have := h (W.length - 1) (by omega) (by simp at hN; omega) (by simp at hN; omega)
      rw [nth_full_left _ _ _ (by omega), show W.length - 1 + 1 = W.length by omega,
        nth_full_right _ _ _ (by simp) (by simp at hN; omega), hN] at this
      simp only [List.length_nil, Nat.add_zero] at this
      rw [show 2 * W.length - 1 - W.length = W.length - 1 by omega] at this
      have hd := withinAngle_self_nonneg this
      rw [disoOK_iff_nth]
      intro i hi
      simp at hi
      subst hi
      exact withinAngle_self hd
    | [x], _ =>
      have k1 := key x rfl
      rw [disoOK_iff_nth]
      intro i hi
      have hi2 : i < 2 := by simpa using hi
      match i, hi2 with
      | 0, _ => exact k1
      | 1, _ => exact withinAngle_comm k1

end Bella
