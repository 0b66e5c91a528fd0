import Verif.Proofs.Common
import Verif.Model.Guidelines
import Verif.Spec.Drops
/-
Property C10: ply drop spacing.
-/
namespace Bella

/-- drop positions from index `i` on -/
def dropsFrom (ss : Stack) (i : Nat) : List Nat :=
  (List.range' i (ss.length - i)).filter (fun j => decide (ss[j]? = some (-1)))

theorem dropsFrom_zero (ss : Stack) : dropsFrom ss 0 = Spec.dropPositions ss := by
  unfold dropsFrom Spec.dropPositions
  rw [List.range_eq_range']; simp

theorem dropsFrom_ge (ss : Stack) (i : Nat) (h : ss.length ≤ i) : dropsFrom ss i = [] := by
  unfold dropsFrom
  have : ss.length - i = 0 := by omega
  simp [this]

theorem dropsFrom_lt (ss : Stack) (i : Nat) (h : i < ss.length) :
    dropsFrom ss i = if ss[i] = -1 then i :: dropsFrom ss (i + 1) else dropsFrom ss (i + 1) := by
  unfold dropsFrom
  have e : ss.length - i = (ss.length - (i + 1)) + 1 := by omega
  rw [e, List.range'_succ, List.filter_cons]
  simp only [List.getElem?_eq_getElem h, Option.some.injEq, decide_eq_true_eq]

theorem nextDrop_spec (ss : Stack) (i : Nat) :
    (nextDrop ss i < ss.length → dropsFrom ss i = nextDrop ss i :: dropsFrom ss (nextDrop ss i + 1)) ∧
    (¬ nextDrop ss i < ss.length → dropsFrom ss i = []) := by
  induction h : ss.length - i generalizing i with
  | zero =>
    have hi : ss.length ≤ i := by omega
    have := le_nextDrop ss i
    exact ⟨fun hlt => by omega, fun _ => dropsFrom_ge ss i hi⟩
  | succ n ih =>
    have hi : i < ss.length := by omega
    rw [dropsFrom_lt ss i hi]
    unfold nextDrop
    rw [dif_pos hi]
    by_cases hd : ss[i] = -1
    · rw [if_pos hd, if_pos hd]
      exact ⟨fun _ => rfl, fun hn => absurd hi hn⟩
    · rw [if_neg hd, if_neg hd]
      exact ih (i + 1) (by omega)

theorem spacingLoop_eq (ss : Stack) (m : Int) (i1 i2 : Nat) (p : Int) :
    spacingLoop ss m i1 i2 p = p + Spec.spacingDeficit m (i1 :: dropsFrom ss i2) := by
  induction h : ss.length - i2 using Nat.strong_induction_on generalizing i1 i2 p with
  | _ n ih =>
    unfold spacingLoop
    split
    · rename_i hlt
      have hle := le_nextDrop ss i2
      obtain ⟨s1, s2⟩ := nextDrop_spec ss i2
      simp only
      rw [ih (ss.length - (nextDrop ss i2 + 1)) (by omega) _ _ _ rfl]
      by_cases hj : nextDrop ss i2 < ss.length
      · rw [s1 hj]
        unfold Spec.spacingDeficit
        simp only [List.tail_cons, List.zip_cons_cons, List.map_cons, List.sum_cons, hj, true_and]
        split
        · rw [max_eq_right (by omega)]; ring
        · rw [max_eq_left (by omega)]; ring
      · rw [s2 hj, dropsFrom_ge ss _ (by omega)]
        simp [Spec.spacingDeficit, hj]
    · rename_i hlt
      rw [dropsFrom_ge ss i2 (by omega)]
      simp [Spec.spacingDeficit]

/-- C10: the penalty is the total of the plies missing between successive ply drops divided by the
length of the layout. -/
theorem C10_penalty_exact (ss : Stack) (m : Int) (hne : ss ≠ []) :
    calcPenaltySpacing1ss ss m =
      .ok ((Spec.spacingDeficit m (Spec.dropPositions ss) : ℚ) / ss.length) := by
  have hl : ss.length ≠ 0 := by simpa using hne
  unfold calcPenaltySpacing1ss
  simp only [if_neg hl, Except.ok.injEq]
  congr 2
  rw [spacingLoop_eq, zero_add, ← dropsFrom_zero]
  obtain ⟨s1, s2⟩ := nextDrop_spec ss 0
  by_cases hj : nextDrop ss 0 < ss.length
  · rw [s1 hj]
  · rw [s2 hj, dropsFrom_ge ss _ (by omega)]
    simp [Spec.spacingDeficit]

theorem deficit_nonneg (m : Int) (l : List Nat) : 0 ≤ Spec.spacingDeficit m l := by
  unfold Spec.spacingDeficit
  apply List.sum_nonneg
  intro x hx
  obtain ⟨p, _, rfl⟩ := List.mem_map.1 hx
  exact le_max_left _ _

theorem deficit_zero_iff (m : Int) (l : List Nat) (hl : l.Pairwise (· < ·)) :
    Spec.spacingDeficit m l = 0 ↔ l.Pairwise (fun i j : Nat => m ≤ (j : Int) - i - 1) := by
  induction l with
  | nil => simp [Spec.spacingDeficit]
  | cons i l ih =>
    cases l with
    | nil => simp [Spec.spacingDeficit]
    | cons j l =>
      have e : Spec.spacingDeficit m (i :: j :: l) =
          max 0 (m - ((j : Int) - i - 1)) + Spec.spacingDeficit m (j :: l) := by
        simp [Spec.spacingDeficit]
      have h1 := deficit_nonneg m (j :: l)
      have h2 : 0 ≤ max 0 (m - ((j : Int) - i - 1)) := le_max_left _ _
      rw [List.pairwise_cons] at hl
      rw [e, List.pairwise_cons, ← ih hl.2]
      constructor
      · intro h
        have h3 : max 0 (m - ((j : Int) - i - 1)) = 0 := by omega
        have h4 : m ≤ (j : Int) - i - 1 := by
          have := le_max_right 0 (m - ((j : Int) - i - 1)); omega
        refine ⟨?_, by omega⟩
        intro k hk
        rcases List.mem_cons.1 hk with rfl | hk
        · exact h4
        · have := (List.pairwise_cons.1 hl.2).1 k hk
          omega
      · rintro ⟨h3, h4⟩
        have := h3 j (by simp)
        rw [h4, max_eq_left (by omega)]
        rfl

theorem dropPositions_sorted (ss : Stack) : (Spec.dropPositions ss).Pairwise (· < ·) :=
  List.Pairwise.filter _ List.pairwise_lt_range

theorem mem_dropPositions (ss : Stack) (i : Nat) :
    i ∈ Spec.dropPositions ss ↔ ss[i]? = some (-1) := by
  unfold Spec.dropPositions
  simp only [List.mem_filter, List.mem_range, decide_eq_true_eq]
  constructor
  · exact fun h => h.2
  · intro h; exact ⟨(List.getElem?_eq_some_iff.1 h).1, h⟩

theorem deficit_spaced (m : Int) (ss : Stack) :
    Spec.spacingDeficit m (Spec.dropPositions ss) = 0 ↔ Spec.Spaced m ss := by
  rw [deficit_zero_iff m _ (dropPositions_sorted ss)]
  have hp := dropPositions_sorted ss
  constructor
  · intro h i j hij hi hj
    have hi' := (mem_dropPositions ss i).2 hi
    have hj' := (mem_dropPositions ss j).2 hj
    obtain ⟨a, ha, rfl⟩ := List.getElem_of_mem hi'
    obtain ⟨b, hb, rfl⟩ := List.getElem_of_mem hj'
    have hab : a < b := by
      rcases Nat.lt_trichotomy a b with h1 | h1 | h1
      · exact h1
      · subst h1; omega
      · have := (List.pairwise_iff_getElem.1 hp) b a hb ha h1; omega
    exact (List.pairwise_iff_getElem.1 h) a b ha hb hab
  · intro h
    rw [List.pairwise_iff_getElem]
    intro a b ha hb hab
    have h1 := (List.pairwise_iff_getElem.1 hp) a b ha hb hab
    exact h _ _ h1 ((mem_dropPositions ss _).1 (List.getElem_mem ha))
      ((mem_dropPositions ss _).1 (List.getElem_mem hb))

/-- C10: the penalty is non-negative and it is zero exactly when any two ply drops are separated
by at least `min_drop` plies. -/
theorem C10_penalty_zero_iff (ss : Stack) (m : Int) (hne : ss ≠ []) :
    ∃ p, calcPenaltySpacing1ss ss m = .ok p ∧ 0 ≤ p ∧ (p = 0 ↔ Spec.Spaced m ss) := by
  refine ⟨_, C10_penalty_exact ss m hne, ?_, ?_⟩
  · have h1 := deficit_nonneg m (Spec.dropPositions ss)
    have h2 : (0 : ℚ) ≤ (Spec.spacingDeficit m (Spec.dropPositions ss) : ℚ) := by exact_mod_cast h1
    positivity
  · have hl : (ss.length : ℚ) ≠ 0 := by
      have : ss.length ≠ 0 := by simpa using hne
      exact_mod_cast this
    rw [div_eq_zero_iff]
    simp only [hl, or_false, Int.cast_eq_zero]
    exact deficit_spaced m ss

theorem deficit_append_one (m : Int) (l : List Nat) (a b : Nat) :
    Spec.spacingDeficit m (l ++ [a, b]) =
      Spec.spacingDeficit m (l ++ [a]) + max 0 (m - ((b : Int) - a - 1)) := by
  induction l with
  | nil => simp [Spec.spacingDeficit]
  | cons x l ih =>
    cases l with
    | nil => simp [Spec.spacingDeficit]
    | cons y l =>
      have e1 : Spec.spacingDeficit m (x :: (y :: l ++ [a, b])) =
        max 0 (m - ((y : Int) - x - 1)) + Spec.spacingDeficit m (y :: l ++ [a, b]) := by
        simp [Spec.spacingDeficit]
      have e2 : Spec.spacingDeficit m (x :: (y :: l ++ [a])) =
        max 0 (m - ((y : Int) - x - 1)) + Spec.spacingDeficit m (y :: l ++ [a]) := by
        simp [Spec.spacingDeficit]
      have e3 : (x :: y :: l) ++ [a, b] = x :: (y :: l ++ [a, b]) := rfl
      have e4 : (x :: y :: l) ++ [a] = x :: (y :: l ++ [a]) := rfl
      rw [e3, e4, e1, ih, e2]
      ring

theorem deficit_mirror (m : Int) (N : Nat) (l : List Nat) (hl : ∀ i ∈ l, i < N) :
    Spec.spacingDeficit m ((l.map (fun i => N - 1 - i)).reverse) = Spec.spacingDeficit m l := by
  induction l with
  | nil => rfl
  | cons i l ih =>
    cases l with
    | nil => simp [Spec.spacingDeficit]
    | cons j l =>
      have hi := hl i (by simp)
      have hj := hl j (by simp)
      simp only [List.map_cons, List.reverse_cons, List.append_assoc, List.cons_append,
        List.nil_append]
      rw [deficit_append_one]
      have ih' := ih (fun k hk => hl k (by simp [hk]))
      simp only [List.map_cons, List.reverse_cons] at ih'
      rw [ih']
      have e : Spec.spacingDeficit m (i :: j :: l) =
          max 0 (m - ((j : Int) - i - 1)) + Spec.spacingDeficit m (j :: l) := by
        simp [Spec.spacingDeficit]
      rw [e, add_comm]
      congr 2
      omega

theorem dropPositions_reverse (ss : Stack) :
    Spec.dropPositions ss.reverse =
      ((Spec.dropPositions ss).map (fun i => ss.length - 1 - i)).reverse := by
  apply List.Perm.eq_of_pairwise (le := fun a b : Nat => a < b)
  · intro a b _ _ h1 h2; omega
  · exact dropPositions_sorted _
  · rw [List.pairwise_reverse, List.pairwise_map]
    have h1 := dropPositions_sorted ss
    refine List.Pairwise.imp_of_mem ?_ h1
    intro a b ha hb hab
    have := (List.getElem?_eq_some_iff.1 ((mem_dropPositions ss b).1 hb)).1
    omega
  · have n1 : (Spec.dropPositions ss.reverse).Nodup :=
      (dropPositions_sorted _).imp (fun h => by omega)
    have n2 : (Spec.dropPositions ss).Nodup :=
      (dropPositions_sorted _).imp (fun h => by omega)
    have n3 : ((Spec.dropPositions ss).map (fun i => ss.length - 1 - i)).reverse.Nodup := by
      rw [List.nodup_reverse]
      apply List.Nodup.map_on _ n2
      intro a ha b hb hab
      have := (List.getElem?_eq_some_iff.1 ((mem_dropPositions ss a).1 ha)).1
      have := (List.getElem?_eq_some_iff.1 ((mem_dropPositions ss b).1 hb)).1
      omega
    rw [List.perm_ext_iff_of_nodup n1 n3]
    intro i
    simp only [List.mem_reverse, List.mem_map, mem_dropPositions]
    constructor
    · intro h
      have hi := (List.getElem?_eq_some_iff.1 h).1
      simp only [List.length_reverse] at hi
      rw [List.getElem?_reverse hi] at h
      exact ⟨ss.length - 1 - i, h, by omega⟩
    · rintro ⟨j, hj, rfl⟩
      have hj' := (List.getElem?_eq_some_iff.1 hj).1
      rw [List.getElem?_reverse (by omega)]
      have : ss.length - 1 - (ss.length - 1 - j) = j := by omega
      rw [this]; exact hj

/-- C10: turning the laminate upside down does not change the penalty. -/
theorem C10_penalty_reverse (ss : Stack) (m : Int) :
    calcPenaltySpacing1ss ss.reverse m = calcPenaltySpacing1ss ss m := by
  by_cases hne : ss = []
  · subst hne; rfl
  · rw [C10_penalty_exact _ m hne, C10_penalty_exact _ m (by simpa using hne),
      dropPositions_reverse, deficit_mirror, List.length_reverse]
    intro i hi
    exact (List.getElem?_eq_some_iff.1 ((mem_dropPositions ss i).1 hi)).1

/-- C10: the penalty can only grow with `min_drop`. -/
theorem C10_penalty_mono (ss : Stack) (m m' : Int) (hm : m ≤ m') (p p' : ℚ)
    (h : calcPenaltySpacing1ss ss m = .ok p) (h' : calcPenaltySpacing1ss ss m' = .ok p') :
    p ≤ p' := by
  have hne : ss ≠ [] := by
    rintro rfl; simp [calcPenaltySpacing1ss] at h
  rw [C10_penalty_exact _ _ hne, Except.ok.injEq] at h h'
  subst h; subst h'
  have hl : (0 : ℚ) < ss.length := by
    have : 0 < ss.length := List.length_pos_of_ne_nil hne
    exact_mod_cast this
  apply div_le_div_of_nonneg_right _ hl.le
  have : Spec.spacingDeficit m (Spec.dropPositions ss) ≤
      Spec.spacingDeficit m' (Spec.dropPositions ss) := by
    unfold Spec.spacingDeficit
    apply List.sum_le_sum
    intro x _
    exact max_le_max (le_refl _) (by omega)
  exact_mod_cast this

example : Spec.Spaced 2 [1, 2, -1, 3, 4, -1, 5] ∧ ¬ Spec.Spaced 2 [1, -1, 3, -1, 5] := by
  constructor
  · rw [← deficit_spaced]; decide
  · rw [← deficit_spaced]; decide

/-! ### whole layout -/

/-- positions at which the two panels do not both drop the ply -/
theorem spacingFold (pdl : List Stack) (bs : List (Nat × Nat × ℚ)) (m : Int) (acc tot : ℚ)
    (hw : ∀ b ∈ bs, 0 < b.2.2)
    (h : bs.foldlM (init := acc) (fun acc b => do
      let l1 := pdl.getD b.1 []
      let l2 := pdl.getD b.2.1 []
      if l1.length = 1 ∨ l2.length = 1 then return acc
      let p ← calcPenaltySpacing1ss (spacingLayout l1 l2) m
      return acc + b.2.2 * p) = (.ok tot : Py ℚ)) :
    acc ≤ tot ∧ (tot = acc ↔ ∀ b ∈ bs, (pdl.getD b.1 []).length ≠ 1 →
      (pdl.getD b.2.1 []).length ≠ 1 →
      Spec.Spaced m (spacingLayout (pdl.getD b.1 []) (pdl.getD b.2.1 []))) := by
  induction bs generalizing acc with
  | nil =>
    simp only [List.foldlM_nil, pure, Except.pure, Except.ok.injEq] at h
    subst h; simp
  | cons b bs ih =>
    rw [List.foldlM_cons] at h
    simp only [bind, Except.bind, pure, Except.pure] at h
    split at h
    · cases h
    rename_i v hv
    split at hv
    · rename_i h1
      simp only [Except.ok.injEq] at hv
      subst hv
      obtain ⟨g1, g2⟩ := ih acc (fun b hb => hw b (by simp [hb])) h
      refine ⟨g1, g2.trans ?_⟩
      simp only [List.mem_cons, forall_eq_or_imp]
      constructor
      · intro g; exact ⟨fun a1 a2 => by tauto, g⟩
      · exact fun g => g.2
    · rename_i h1
      split at hv
      · cases hv
      rename_i p hp
      simp only [Except.ok.injEq] at hv
      subst hv
      have hne : spacingLayout (pdl.getD b.1 []) (pdl.getD b.2.1 []) ≠ [] := by
        intro e; rw [e] at hp; simp [calcPenaltySpacing1ss] at hp
      obtain ⟨q, hq, hq0, hqz⟩ := C10_penalty_zero_iff _ m hne
      rw [hq] at hp
      obtain rfl : q = p := Except.ok.inj hp
      have hwb := hw b (by simp)
      have hpos : 0 ≤ b.2.2 * q := mul_nonneg hwb.le hq0
      obtain ⟨g1, g2⟩ := ih (acc + b.2.2 * q) (fun b hb => hw b (by simp [hb])) h
      refine ⟨by linarith, ?_⟩
      simp only [List.mem_cons, forall_eq_or_imp]
      constructor
      · intro e
        have e1 : b.2.2 * q = 0 := by linarith
        have e2 : q = 0 := by
          rcases mul_eq_zero.1 e1 with h | h
          · linarith
          · exact h
        exact ⟨fun _ _ => hqz.1 e2, g2.1 (by linarith)⟩
      · rintro ⟨g3, g4⟩
        push Not at h1
        have e2 := hqz.2 (g3 h1.1 h1.2)
        have := g2.2 g4
        rw [this, e2]; ring

/-- C10: on the blending strip (all boundaries with positive weights), the penalty of a layout is
non-negative and zero exactly when, for each pair of neighbouring panels, the ply drops of the one
relative to the other are sufficiently spaced. -/
theorem C10_layout_zero_iff (pdl : List Stack) (bs : List (Nat × Nat × ℚ)) (m : Int) (p : ℚ)
    (hw : ∀ b ∈ bs, 0 < b.2.2) (h : calcPenaltySpacing pdl bs m = .ok p) :
    0 ≤ p ∧ (p = 0 ↔ ∀ b ∈ bs, (pdl.getD b.1 []).length ≠ 1 → (pdl.getD b.2.1 []).length ≠ 1 →
      Spec.Spaced m (spacingLayout (pdl.getD b.1 []) (pdl.getD b.2.1 []))) :=
  spacingFold pdl bs m 0 p hw h

/-- C10: for nested panels (plies dropped in the thicker panel are dropped in the thinner one), the
layout on which spacing is measured is the thinner panel's layout on the plies of the thicker. -/
theorem C10_relative_layout (thin thick : Stack) (hl : thin.length = thick.length)
    (hnest : ∀ i : Nat, thick[i]? = some (-1) → thin[i]? = some (-1))
    (hdrop : ∃ i : Nat, thin[i]? = some (-1) ∧ thick[i]? ≠ some (-1)) :
    spacingLayout thin thick =
      ((thin.zip thick).filter (fun p => decide (p.2 ≠ -1))).map Prod.fst := by
  have hf : (thin.zip thick).filter (fun p => p.1 != -1 || p.1 != p.2) =
      (thin.zip thick).filter (fun p => decide (p.2 ≠ -1)) := by
    apply List.filter_congr
    rintro ⟨x, y⟩ hmem
    obtain ⟨i, hi⟩ := List.mem_iff_getElem?.1 hmem
    rw [List.getElem?_zip_eq_some] at hi
    simp only [ne_eq, decide_not]
    rw [Bool.eq_iff_iff]
    simp only [Bool.or_eq_true, bne_iff_ne, Bool.not_eq_true', decide_eq_false_iff_not, ne_eq]
    by_cases hy : y = -1
    · subst hy
      have h1 := hnest i hi.2
      rw [hi.1] at h1
      have hx : x = -1 := Option.some.inj h1
      simp [hx]
    · simp only [hy, not_false_eq_true, iff_true]
      by_cases hx : x = -1
      · right; subst hx; exact fun h => hy h.symm
      · left; exact hx
  unfold spacingLayout
  simp only [hf]
  rw [if_pos]
  rw [List.contains_iff_mem, List.mem_map]
  obtain ⟨i, h1, h2⟩ := hdrop
  have hi1 := (List.getElem?_eq_some_iff.1 h1).1
  have hi2 : i < thick.length := by omega
  refine ⟨(-1, thick[i]), ?_, rfl⟩
  rw [List.mem_filter]
  refine ⟨?_, ?_⟩
  · apply List.mem_of_getElem? (i := i)
    rw [List.getElem?_zip_eq_some]
    exact ⟨h1, List.getElem?_eq_getElem hi2⟩
  · simp only [decide_eq_true_eq]
    intro e
    rw [List.getElem?_eq_getElem hi2, e] at h2
    exact h2 rfl

example : spacingLayout [1, -1, 2, -1, -1] [1, -1, 2, 3, 4] = [1, 2, -1, -1] ∧
    (∀ i : Nat, ([1, -1, 2, 3, 4] : Stack)[i]? = some (-1) →
      ([1, -1, 2, -1, -1] : Stack)[i]? = some (-1)) := by
  refine ⟨by decide, ?_⟩
  intro i h
  have hi : i < 5 := (List.getElem?_eq_some_iff.1 h).1
  interval_cases i <;> simp_all

end Bella
