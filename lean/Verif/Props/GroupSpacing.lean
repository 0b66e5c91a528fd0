import Verif.Spec.GroupSpacing
import Verif.Props.PdlInitial
/-
C74: spacing of the ply drops of the groups of plies of an initial layout, the neighbouring groups included.
-/
namespace Bella

/-! ### the penalty only depends on the places of the ply drops -/

theorem spacingLayout_eq (l1 l2 : List Int) : spacingLayout l1 l2 = Spec.relativeLayout l1 l2 := by
  unfold spacingLayout Spec.relativeLayout Spec.onCommonPlies
  have h : (l1.zip l2).filter (fun p => p.1 != -1 || p.1 != p.2) =
      (l1.zip l2).filter (fun p => decide (¬ (p.1 = -1 ∧ p.2 = -1))) := by
    apply List.filter_congr
    rintro ⟨x, y⟩ _
    rw [Bool.eq_iff_iff]
    simp only [Bool.or_eq_true, bne_iff_ne, ne_eq, decide_eq_true_eq]
    omega
  simp only [h, List.contains_iff_mem]

theorem mark_eq (x : Int) : (if x = -1 then (-1 : Int) else 1) = -1 ↔ x = -1 := by
  split <;> simp_all

theorem marks_drop (l : List Int) (j : Nat) : (marks l)[j]? = some (-1) ↔ l[j]? = some (-1) := by
  simp only [marks, List.getElem?_map]
  cases l[j]? with
  | none => simp
  | some x => simp only [Option.map_some, Option.some.injEq]; exact mark_eq x

theorem marks_onCommonPlies (l1 l2 : List Int) :
    Spec.onCommonPlies (marks l1) (marks l2) =
      (marks (Spec.onCommonPlies l1 l2).1, marks (Spec.onCommonPlies l1 l2).2) := by
  unfold Spec.onCommonPlies marks
  simp only [List.zip_map, List.filter_map, List.map_map, Prod.mk.injEq]
  have h : (l1.zip l2).filter ((fun p => decide (¬ (p.1 = -1 ∧ p.2 = -1))) ∘
      Prod.map (fun x => if x = -1 then (-1 : Int) else 1) (fun x => if x = -1 then (-1 : Int) else 1)) =
      (l1.zip l2).filter (fun p => decide (¬ (p.1 = -1 ∧ p.2 = -1))) := by
    apply List.filter_congr
    rintro ⟨x, y⟩ _
    simp only [Function.comp, Prod.map, mark_eq]
  rw [h]
  exact ⟨rfl, rfl⟩

theorem marks_mem (l : List Int) : (-1 : Int) ∈ marks l ↔ (-1 : Int) ∈ l := by
  simp only [List.mem_iff_getElem?, marks_drop]

theorem marks_relativeLayout (l1 l2 : List Int) :
    Spec.relativeLayout (marks l1) (marks l2) = marks (Spec.relativeLayout l1 l2) := by
  unfold Spec.relativeLayout
  rw [marks_onCommonPlies]
  simp only [marks_mem]
  split <;> rfl

theorem spacingShare_marks (m : Int) (l : List Int) : Spec.spacingShare m (marks l) = Spec.spacingShare m l := by
  unfold Spec.spacingShare
  have hl : (marks l).length = l.length := by simp [marks]
  have h : Spec.dropPositions (marks l) = Spec.dropPositions l := by
    unfold Spec.dropPositions
    rw [hl]
    exact List.filter_congr (fun j _ => by simp only [marks_drop])
  rw [h, hl]

theorem marks_append (a b : List Int) : marks (a ++ b) = marks a ++ marks b := by simp [marks]

/-- Two groups with the same ply drops have the same penalty. -/
theorem groupPenalty_congr (m : Int) (bs : List (Nat × Nat × ℚ)) (before g g' after after' : Nat → List Int)
    (h1 : ∀ i, marks (g i) = marks (g' i)) (h2 : ∀ i, marks (after i) = marks (after' i)) :
    Spec.groupPenalty m bs before g after = Spec.groupPenalty m bs before g' after' := by
  have hl : ∀ i, (g i).length = (g' i).length := fun i => by
    have := congrArg List.length (h1 i); simpa [marks] using this
  unfold Spec.groupPenalty
  apply congrArg List.sum
  apply List.map_congr_left
  intro b _
  rw [hl, hl]
  have e : ∀ i, marks (Spec.inContext before g after i) = marks (Spec.inContext before g' after' i) := by
    intro i
    simp only [Spec.inContext, marks_append, h1, h2]
  rw [← spacingShare_marks, ← marks_relativeLayout, e, e, marks_relativeLayout, spacingShare_marks]

theorem spacingShare_nonneg (m : Int) (ss : List Int) : 0 ≤ Spec.spacingShare m ss := by
  unfold Spec.spacingShare
  apply div_nonneg
  · exact_mod_cast deficit_nonneg m _
  · positivity

theorem spacingShare_zero (m : Int) (ss : List Int) : Spec.spacingShare m ss = 0 ↔ Spec.Spaced m ss := by
  unfold Spec.spacingShare
  rw [div_eq_zero_iff]
  constructor
  · rintro (h | h)
    · exact (deficit_spaced m ss).1 (by exact_mod_cast h)
    · have : ss = [] := by simpa using h
      subst this
      intro i j _ hi
      simp at hi
  · intro h
    left
    exact_mod_cast (deficit_spaced m ss).2 h

/-- C74: the penalty of a group is non-negative, and zero exactly if its ply drops are spaced for every pair
of neighbouring panels. -/
theorem C74_penalty_zero_iff (m : Int) (bs : List (Nat × Nat × ℚ)) (hw : ∀ b ∈ bs, 0 < b.2.2)
    (before g after : Nat → List Int) : 0 ≤ Spec.groupPenalty m bs before g after ∧
      (Spec.groupPenalty m bs before g after = 0 ↔ Spec.GroupSpaced m bs before g after) := by
  unfold Spec.groupPenalty Spec.GroupSpaced
  induction bs with
  | nil => simp
  | cons b bs ih =>
    obtain ⟨i1, i2⟩ := ih (fun x hx => hw x (by simp [hx]))
    have hb := hw b (by simp)
    simp only [List.map_cons, List.sum_cons, List.mem_cons, forall_eq_or_imp]
    rw [← i2]
    have hs := spacingShare_nonneg m (Spec.relativeLayout (Spec.inContext before g after b.1)
      (Spec.inContext before g after b.2.1))
    have hz := spacingShare_zero m (Spec.relativeLayout (Spec.inContext before g after b.1)
      (Spec.inContext before g after b.2.1))
    generalize Spec.spacingShare m (Spec.relativeLayout (Spec.inContext before g after b.1)
      (Spec.inContext before g after b.2.1)) = q at hs hz ⊢
    generalize ((bs.map _).sum : ℚ) = r at i1 ⊢
    rw [← hz]
    by_cases hc : (g b.1).length = 1 ∨ (g b.2.1).length = 1
    · rw [if_pos hc, zero_add]
      exact ⟨i1, fun h => ⟨fun a1 a2 => absurd hc (by tauto), h⟩, fun h => h.2⟩
    · rw [if_neg hc]
      have hq := mul_nonneg hb.le hs
      refine ⟨add_nonneg hq i1, fun h => ?_, fun h => ?_⟩
      · have e : b.2.2 * q = 0 := by linarith
        refine ⟨fun _ _ => ?_, by linarith⟩
        rcases mul_eq_zero.1 e with h | h
        · linarith
        · exact h
      · push Not at hc
        rw [h.1 hc.1 hc.2, h.2]; ring

/-! ### one group -/

theorem groupRow_of_optRow {t : Option Table} {i : Nat} {r : List Int} (h : optRow t i = .ok r) :
    Spec.groupRow i t = r := by
  cases t with
  | none => simpa [optRow, Spec.groupRow] using h
  | some t =>
    simp only [optRow, pyGet_eq_ok] at h
    simp [Spec.groupRow, h]

/-- C74: the penalty computed for a group of plies, placed after and before the given ones, is the weighted
sum over the pairs of neighbouring panels of the plies missing between ply drops. -/
theorem C74_penalty_exact (m : Int) (bs : List (Nat × Nat × ℚ)) (before after : Option Table) (pdl : Table)
    (p : ℚ) (h : groupSpacing true m bs before after pdl = .ok p) :
    p = Spec.groupPenalty m bs (fun i => Spec.groupRow i before) (fun i => pdl.getD i [])
      (fun i => Spec.groupRow i after) := by
  unfold groupSpacing at h
  rw [if_neg (by simp)] at h
  suffices ∀ acc : ℚ, bs.foldlM (init := acc) (fun acc b => do
    let r1 ← pyGet pdl b.1
    let r2 ← pyGet pdl b.2.1
    if r1.length = 1 ∨ r2.length = 1 then return acc
    let l1 := (← optRow before b.1) ++ r1 ++ (← optRow after b.1)
    let l2 := (← optRow before b.2.1) ++ r2 ++ (← optRow after b.2.1)
    let p ← calcPenaltySpacing1ss (spacingLayout l1 l2) m
    return acc + b.2.2 * p) = .ok p → p = acc + Spec.groupPenalty m bs (fun i => Spec.groupRow i before)
      (fun i => pdl.getD i []) (fun i => Spec.groupRow i after) by
    have := this 0 h
    rwa [zero_add] at this
  clear h
  induction bs with
  | nil =>
    intro acc h
    simp only [List.foldlM_nil, pure, Except.pure, Except.ok.injEq] at h
    simp [Spec.groupPenalty, h]
  | cons b bs ih =>
    intro acc h
    rw [List.foldlM_cons] at h
    obtain ⟨v, hv, h⟩ := bind_ok.1 h
    rw [ih v h]
    obtain ⟨r1, h1, hv⟩ := bind_ok.1 hv
    obtain ⟨r2, h2, hv⟩ := bind_ok.1 hv
    rw [pyGet_eq_ok] at h1 h2
    have e1 : pdl.getD b.1 [] = r1 := by simp [h1]
    have e2 : pdl.getD b.2.1 [] = r2 := by simp [h2]
    simp only [Spec.groupPenalty, List.map_cons, List.sum_cons]
    rw [← add_assoc]
    congr 1
    by_cases hc : r1.length = 1 ∨ r2.length = 1
    · rw [if_pos hc] at hv
      rw [if_pos (by rw [e1, e2]; exact hc), ← Except.ok.inj hv, add_zero]
    · rw [if_neg hc] at hv
      rw [if_neg (by rw [e1, e2]; exact hc)]
      obtain ⟨b1, f1, hv⟩ := bind_ok.1 hv
      obtain ⟨a1, f2, hv⟩ := bind_ok.1 hv
      obtain ⟨b2, f3, hv⟩ := bind_ok.1 hv
      obtain ⟨a2, f4, hv⟩ := bind_ok.1 hv
      obtain ⟨q, f5, hv⟩ := bind_ok.1 hv
      rw [← Except.ok.inj hv]
      have hne : spacingLayout (b1 ++ r1 ++ a1) (b2 ++ r2 ++ a2) ≠ [] := by
        intro e; rw [e] at f5; simp [calcPenaltySpacing1ss] at f5
      rw [C10_penalty_exact _ _ hne] at f5
      have f5 := Except.ok.inj f5
      rw [← f5, spacingLayout_eq]
      simp only [Spec.inContext, e1, e2, groupRow_of_optRow f1, groupRow_of_optRow f2, groupRow_of_optRow f3,
        groupRow_of_optRow f4, Spec.spacingShare]

/-- The rows of the plies placed after a group: the mirror image of the group for the last group of symmetric
laminates, else the plies given. -/
def rowsAfter (a : GroupArgs) (t : Table) (i : Nat) : List Int :=
  if a.lastGroup = true ∧ a.sym = true then Spec.mirrorRows a.hasMiddle (fun i => t.getD i []) i
  else Spec.groupRow i a.after

theorem mirrorAfter_rows (a : GroupArgs) (t : Table) (i : Nat) :
    Spec.groupRow i (mirrorAfter a t) = rowsAfter a t i := by
  unfold mirrorAfter rowsAfter Spec.mirrorRows
  by_cases h : a.lastGroup = true ∧ a.sym = true
  · rw [if_pos (by simp [h]), if_pos h]
    simp only [Spec.groupRow, List.getD_eq_getElem?_getD, List.getElem?_map]
    cases t[i]? with
    | none => cases a.hasMiddle <;> rfl
    | some r => rfl
  · rw [if_neg (by simpa using h), if_neg h]

theorem formatPlyDrops2_row (t : Table) (i : Nat) :
    (formatPlyDrops2 t).getD i [] = renumber 0 (t.getD i []) := by
  simp only [formatPlyDrops2, List.getD_eq_getElem?_getD, List.getElem?_map]
  cases t[i]? with
  | none => rfl
  | some r => rfl

theorem marks_dropLast (l : List Int) : marks l.dropLast = (marks l).dropLast := by
  simp [marks, List.map_dropLast]

theorem marks_reverse (l : List Int) : marks l.reverse = (marks l).reverse := by
  simp [marks]

theorem marks_rowsAfter (a : GroupArgs) (t : Table) (i : Nat) :
    marks (rowsAfter a t i) = marks (rowsAfter a (formatPlyDrops2 t) i) := by
  unfold rowsAfter Spec.mirrorRows
  split
  · dsimp only
    rw [formatPlyDrops2_row]
    cases a.hasMiddle
    · simp only [Bool.false_eq_true, if_false, marks_reverse, marks_renumber]
    · simp only [if_true, marks_reverse, marks_dropLast, marks_renumber]
  · rfl

/-- C74: the penalty of a random layout of a group is its weighted lack of spacing, with the plies before and
after the group (for the last group of symmetric laminates: with its own mirror image). -/
theorem C74_random_layout_penalty (a : GroupArgs) (d : Draw) (hs : a.pdlSpacing = true) (t : Table) (p : ℚ)
    (h : drawPdl a d = .ok (t, p)) :
    p = Spec.groupPenalty a.minDrop a.boundaries (fun i => Spec.groupRow i a.before)
      (fun i => t.getD i []) (rowsAfter a t) := by
  unfold drawPdl at h
  obtain ⟨drops, _, h⟩ := bind_ok.1 h
  obtain ⟨t1, _, h⟩ := bind_ok.1 h
  have h' : ∃ t3, groupSpacing a.pdlSpacing a.minDrop a.boundaries a.before (mirrorAfter a t3) t3 = .ok p ∧
      formatPlyDrops2 t3 = t := by
    split at h
    all_goals
      obtain ⟨t2, _, h⟩ := bind_ok.1 h
      obtain ⟨t3, _, h⟩ := bind_ok.1 h
      obtain ⟨q, hq, h⟩ := bind_ok.1 h
      simp only [pure, Except.pure, Except.ok.injEq, Prod.mk.injEq] at h
      obtain ⟨rfl, rfl⟩ := h
      exact ⟨t3, hq, rfl⟩
  obtain ⟨t3, hq, rfl⟩ := h'
  rw [hs] at hq
  rw [C74_penalty_exact _ _ _ _ _ _ hq]
  apply groupPenalty_congr
  · intro i
    rw [formatPlyDrops2_row, marks_renumber]
  · intro i
    rw [mirrorAfter_rows]
    exact marks_rowsAfter a t3 i

/-- C74: the search for layouts of a group, when it ends before the time limit, returns as many layouts as
asked for, or as there are ways to choose the ply drops for each number of ply drops if this is less; they
are all different, and in each of them the ply drops are spaced, the plies before and after included. -/
theorem C74_group_search (a : GroupArgs) (nAsked : Nat) (hs : a.pdlSpacing = true)
    (hw : ∀ b ∈ a.boundaries, 0 < b.2.2) (sched : List (Draw × Bool)) (hin : ∀ x ∈ sched, x.2 = false)
    (l : List Table) (h : randomlyPdlGuide a nAsked false sched = .ok (some l)) :
    l.length = min (∏ d ∈ a.nDrops.toFinset, a.nMax.choose d) nAsked ∧ l.Nodup ∧ ∀ t ∈ l,
      Spec.GroupSpaced a.minDrop a.boundaries (fun i => Spec.groupRow i a.before)
        (fun i => t.getD i []) (rowsAfter a t) := by
  obtain ⟨h1, h2, h3⟩ := C42_search_in_time _ _ _ sched hin l h
  refine ⟨?_, h2, fun t ht => ?_⟩
  · rw [h1, nPdlOf]
    congr 1
    have hn : (uniqueDrops a.nDrops).Nodup :=
      (uniqueDrops_sorted _).imp (fun h => Nat.ne_of_lt h)
    have hf : a.nDrops.toFinset = (uniqueDrops a.nDrops).toFinset := by
      ext x; simp [mem_uniqueDrops]
    rw [hf, List.prod_toFinset _ hn]
  · obtain ⟨x, _, hg⟩ := h3 t ht
    exact (C74_penalty_zero_iff _ _ hw _ _ _).2.1 (C74_random_layout_penalty a x.1 hs t 0 hg).symm

/-! ### complete laminates -/

theorem firstLayout_spaced (a : GroupArgs) (nAsked : Nat) (hs : a.pdlSpacing = true)
    (hw : ∀ b ∈ a.boundaries, 0 < b.2.2) (sched : List (Draw × Bool)) (hin : ∀ x ∈ sched, x.2 = false)
    (t : Table) (h : firstLayout (randomlyPdlGuide a nAsked false sched) = .ok (some t)) :
    Spec.GroupSpaced a.minDrop a.boundaries (fun i => Spec.groupRow i a.before)
        (fun i => t.getD i []) (rowsAfter a t) := by
  unfold firstLayout at h
  obtain ⟨r, h1, h2⟩ := bind_ok.1 h
  cases r with
  | none => cases h2
  | some l =>
    cases l with
    | nil => cases h2
    | cons t' l =>
      simp only [pure, Except.pure, Except.ok.injEq, Option.some.injEq] at h2
      subst h2
      exact (C74_group_search a nAsked hs hw sched hin _ h1).2.2 t' (by simp)

/-- The settings of the structure ask for spacing and no time limit is reached. -/
structure SpacingOn (s : StripData) (sched : List (List (Draw × Bool))) : Prop where
  on : s.pdlSpacing = true
  weights : ∀ b ∈ s.boundaries, 0 < b.2.2
  start : s.late0 = false
  inTime : ∀ x ∈ sched, ∀ y ∈ x, y.2 = false

theorem symGroups_spaced (s : StripData) (sched : List (List (Draw × Bool))) (g : Nat) (prev : Option Table)
    (l : List (Option Table)) (ho : SpacingOn s sched) (h : symGroups s g prev sched = .ok (some l)) :
    ∀ k, k < l.length → Spec.GroupSpaced s.minDrop s.boundaries
      (fun i => Spec.groupRow i ((prev :: l).getD k none))
      (fun i => Spec.groupRow i (l.getD k none))
      (fun i => if g + k + 1 = s.sizes.length ∧ s.sym = true then
        Spec.mirrorRows s.hasMiddle (fun i => Spec.groupRow i (l.getD k none)) i else []) := by
  induction sched generalizing g prev l with
  | nil =>
    simp only [symGroups, Except.ok.injEq, Option.some.injEq] at h
    subst h
    intro k hk; simp at hk
  | cons x sched ih =>
    unfold symGroups at h
    obtain ⟨n, h1, h⟩ := bind_ok.1 h
    obtain ⟨d, h2, h⟩ := bind_ok.1 h
    obtain ⟨r, h3, h⟩ := bind_ok.1 h
    cases r with
    | none => cases h
    | some t =>
      dsimp only at h
      obtain ⟨q, h4, h⟩ := bind_ok.1 h
      cases q with
      | none => cases h
      | some l' =>
        simp only [pure, Except.pure, Except.ok.injEq, Option.some.injEq] at h
        subst h
        rw [ho.start] at h3
        have hg := firstLayout_spaced _ _ ho.on ho.weights x (ho.inTime x (by simp)) t h3
        intro k hk
        cases k with
        | zero =>
          have e : rowsAfter
            {
              nDrops := d, nMax := n, pdlSpacing := s.pdlSpacing, minDrop := s.minDrop, sym := s.sym,
              boundaries := s.boundaries, before := prev, lastGroup := g + 1 == s.sizes.length,
              hasMiddle := s.hasMiddle, middleIdx := s.middleIdx } t =
              (fun i => if g + 0 + 1 = s.sizes.length ∧ s.sym = true then
                Spec.mirrorRows s.hasMiddle (fun i => Spec.groupRow i (some t)) i else []) := by
            funext i
            simp only [rowsAfter, beq_iff_eq, Nat.add_zero]
            rfl
          rw [e] at hg
          exact hg
        | succ k =>
          have := ih (g + 1) (some t) l' ⟨ho.on, ho.weights, ho.start,
            fun y hy => ho.inTime y (by simp [hy])⟩ h4 k (by simpa using hk)
          simp only [show g + 1 + k + 1 = g + (k + 1) + 1 by omega] at this
          exact this

theorem asymGroups_spaced (s : StripData) (hsym : s.sym = false) (sched : List (List (Draw × Bool))) (g : Nat)
    (prev prev2 : Option Table)
    (l : List (Option Table)) (ho : SpacingOn s sched)
    (h : asymGroups s g prev prev2 sched = .ok (some l)) :
    ∀ k, k < l.length → Spec.GroupSpaced s.minDrop s.boundaries
      (fun i => if (g + k) % 2 = 0 then Spec.groupRow i ((prev :: prev2 :: l).getD k none) else [])
      (fun i => Spec.groupRow i (l.getD k none))
      (fun i => if (g + k) % 2 = 1 then Spec.groupRow i ((prev :: prev2 :: l).getD k none) else []) := by
  induction sched generalizing g prev prev2 l with
  | nil =>
    simp only [asymGroups, Except.ok.injEq, Option.some.injEq] at h
    subst h
    intro k hk; simp at hk
  | cons x sched ih =>
    unfold asymGroups at h
    obtain ⟨n, h1, h⟩ := bind_ok.1 h
    obtain ⟨d, h2, h⟩ := bind_ok.1 h
    obtain ⟨r, h3, h⟩ := bind_ok.1 h
    cases r with
    | none => cases h
    | some t =>
      dsimp only at h
      obtain ⟨q, h4, h⟩ := bind_ok.1 h
      cases q with
      | none => cases h
      | some l' =>
        simp only [pure, Except.pure, Except.ok.injEq, Option.some.injEq] at h
        subst h
        rw [ho.start] at h3
        have hg := firstLayout_spaced _ _ ho.on ho.weights x (ho.inTime x (by simp)) t h3
        intro k hk
        cases k with
        | zero =>
          have e : ∀ b : GroupArgs, b.sym = false → rowsAfter b t = fun i => Spec.groupRow i b.after := by
            intro b hb
            funext i
            simp [rowsAfter, hb]
          rw [e _ hsym] at hg
          simp only [Nat.add_zero, List.getD_cons_zero]
          rcases Nat.mod_two_eq_zero_or_one g with hm | hm
          · simp only [hm, if_true, Nat.zero_ne_one, if_false] at hg ⊢
            exact hg
          · simp only [hm, if_true, Nat.one_ne_zero, if_false] at hg ⊢
            exact hg
        | succ k =>
          have := ih (g + 1) prev2 (some t) l' ⟨ho.on, ho.weights, ho.start,
            fun y hy => ho.inTime y (by simp [hy])⟩ h4 k (by simpa using hk)
          simp only [show g + 1 + k = g + (k + 1) by omega] at this
          exact this

theorem take_valid {s : StripData} {sched : List (List (Draw × Bool))} (hv : ValidDraws s 0 sched) (n : Nat) :
    ValidDraws s 0 (sched.take n) := by
  intro k sk n' d e1 e2 e3
  refine hv k sk n' d ?_ e2 e3
  have hk := (List.getElem?_eq_some_iff.1 e1).1
  rw [List.length_take] at hk
  rw [List.getElem?_take_of_lt (by omega)] at e1
  exact e1

theorem take_inTime {s : StripData} {sched : List (List (Draw × Bool))} (ho : SpacingOn s sched) (n : Nat) :
    SpacingOn s (sched.take n) :=
  ⟨ho.on, ho.weights, ho.start, fun x hx => ho.inTime x (List.mem_of_mem_take hx)⟩

/-- C74: in an initial layout of symmetric panels without middle ply, found before the time limits, the first
half of each row is made of the covering plies and of the rows of the groups; the ply drops of each group
are spaced, the plies of the previous group (or the covering plies) included and, for the last group, the
plies of its mirror image included. -/
theorem C74_symmetric (s : StripData) (sched : List (List (Draw × Bool))) (t : Table)
    (hsym : s.sym = true) (hmid : s.hasMiddle = false) (hc : s.nCovering ≤ 2)
    (hlen : s.sizes.length ≤ sched.length) (hd : ∀ d ∈ s.drops, d.length = s.nPanels)
    (hv : ValidDraws s 0 sched) (ho : SpacingOn s sched) (h : createInitialPdl s sched = .ok (some t)) :
    ∃ (cover : Nat → List Int) (groups : Nat → Nat → List Int),
      (∀ i, i < s.nPanels → ∃ row, t[i]? = some row ∧ (cover i).length = s.nCovering ∧
        (∀ x ∈ cover i, x ≠ -1) ∧
        (∀ g, g < s.sizes.length → (groups g i).length = s.sizes.getD g 0) ∧
        Spec.NumbersPlies (cover i ++ (List.range s.sizes.length).flatMap (fun (g : Nat) => groups g i)) row) ∧
      ∀ g, g < s.sizes.length → Spec.GroupSpaced s.minDrop s.boundaries
        (if g = 0 then cover else groups (g - 1)) (groups g)
        (if g + 1 = s.sizes.length then fun i => (groups g i).reverse else fun _ => []) := by
  unfold createInitialPdl at h
  rw [if_pos hsym] at h
  obtain ⟨r, h1, h⟩ := bind_ok.1 h
  cases r with
  | none => cases h
  | some l =>
    dsimp only at h
    obtain ⟨t', h2, h⟩ := bind_ok.1 h
    simp only [pure, Except.pure, Except.ok.injEq, Option.some.injEq] at h
    subst h
    have hb := symGroups_spec s hmid _ 0 _ l (take_valid hv _) h1
    rw [take_length_le hlen rfl] at hb
    have hsp := symGroups_spaced s _ 0 _ l (take_inTime ho _) h1
    refine ⟨fun i => Spec.groupRow i (coveringGroup s), fun g i => Spec.groupRow i (l.getD g none), ?_, ?_⟩
    · intro i hi
      obtain ⟨row, r1, _, _, _, r5⟩ := (C41_symmetric _ _ _ _ _ h2).2 i hi
      obtain ⟨c1, c2⟩ := coveringRow s hc i hi
      refine ⟨row, r1, c1, c2, fun g hg => ?_, ?_⟩
      · have := (groupRow_spec s 0 _ l hb i (fun d h => by rw [hd d h]; exact hi) g hg).1
        rwa [Nat.zero_add] at this
      · have e : Spec.groupRows i (coveringGroup s :: l) = Spec.groupRow i (coveringGroup s) ++
            (List.range s.sizes.length).flatMap (fun (g : Nat) => Spec.groupRow i (l.getD g none)) := by
          rw [← hb.1, ← groupRows_eq_range]
          simp [Spec.groupRows]
        rwa [e] at r5
    · intro g hg
      have hk := hsp g (by rw [hb.1]; exact hg)
      have e1 : (fun i => Spec.groupRow i ((coveringGroup s :: l).getD g none)) =
          (if g = 0 then fun i => Spec.groupRow i (coveringGroup s)
            else fun i => Spec.groupRow i (l.getD (g - 1) none)) := by
        cases g with
        | zero => rfl
        | succ g => rfl
      have e2 : (fun i => if 0 + g + 1 = s.sizes.length ∧ s.sym = true then
          Spec.mirrorRows s.hasMiddle (fun i => Spec.groupRow i (l.getD g none)) i else []) =
          (if g + 1 = s.sizes.length then fun i => (Spec.groupRow i (l.getD g none)).reverse
            else fun _ => []) := by
        funext i
        rw [Nat.zero_add, hsym, hmid]
        by_cases hc : g + 1 = s.sizes.length
        · simp [hc, Spec.mirrorRows]
        · simp [hc]
      rw [e1, e2] at hk
      exact hk

/-- C74: for asymmetric laminates the groups are placed alternately from the two faces (groups 0, 2, 4, ...
after the covering plies of the first face, groups 1, 3, 5, ... before those of the second one); the ply
drops of each group are spaced, the plies of the previous group on the same face included. -/
theorem C74_asymmetric (s : StripData) (sched : List (List (Draw × Bool))) (t : Table)
    (hsym : s.sym = false) (hc : s.nCovering ≤ 2)
    (hlen : s.sizes.length ≤ sched.length) (hd : ∀ d ∈ s.drops, d.length = s.nPanels)
    (hv : ValidDraws s 0 sched) (ho : SpacingOn s sched) (h : createInitialPdl s sched = .ok (some t)) :
    ∃ (cover : Nat → List Int) (groups : Nat → Nat → List Int),
      (∀ i, i < s.nPanels → ∃ row, t[i]? = some row ∧ (cover i).length = s.nCovering ∧
        (∀ x ∈ cover i, x ≠ -1) ∧
        (∀ g, g < s.sizes.length → (groups g i).length = s.sizes.getD g 0) ∧
        Spec.NumbersPlies (cover i ++
          (List.range s.sizes.length).flatMap (fun (g : Nat) => if g % 2 = 0 then groups g i else []) ++
          (List.range s.sizes.length).reverse.flatMap (fun (g : Nat) => if g % 2 = 1 then groups g i else [])
          ++ cover i) row) ∧
      ∀ g, g < s.sizes.length → Spec.GroupSpaced s.minDrop s.boundaries
        (if g % 2 = 0 then (if g = 0 then cover else groups (g - 2)) else fun _ => []) (groups g)
        (if g % 2 = 0 then fun _ => [] else (if g = 1 then cover else groups (g - 2))) := by
  unfold createInitialPdl at h
  rw [if_neg (by simp [hsym])] at h
  obtain ⟨r, h1, h⟩ := bind_ok.1 h
  cases r with
  | none => cases h
  | some l =>
    dsimp only at h
    obtain ⟨t', h2, h⟩ := bind_ok.1 h
    simp only [pure, Except.pure, Except.ok.injEq, Option.some.injEq] at h
    subst h
    have hb := asymGroups_spec s _ 0 _ _ l (take_valid hv _) h1
    rw [take_length_le hlen rfl] at hb
    have hsp := asymGroups_spaced s hsym _ 0 _ _ l (take_inTime ho _) h1
    refine ⟨fun i => Spec.groupRow i (coveringGroup s), fun g i => Spec.groupRow i (l.getD g none), ?_, ?_⟩
    · intro i hi
      obtain ⟨row, r1, _, _, r5⟩ := (C41_asymmetric _ _ _ _ _ _ h2).2 i hi
      rw [alternateRows_onlyParity] at r5
      obtain ⟨c1, c2⟩ := coveringRow s hc i hi
      refine ⟨row, r1, c1, c2, fun g hg => ?_, ?_⟩
      · have := (groupRow_spec s 0 _ l hb i (fun d h => by rw [hd d h]; exact hi) g hg).1
        rwa [Nat.zero_add] at this
      · have e : facesRows i (coveringGroup s :: coveringGroup s :: l) =
            Spec.groupRow i (coveringGroup s) ++
            (List.range s.sizes.length).flatMap
              (fun (g : Nat) => if g % 2 = 0 then Spec.groupRow i (l.getD g none) else []) ++
            (List.range s.sizes.length).reverse.flatMap
              (fun (g : Nat) => if g % 2 = 1 then Spec.groupRow i (l.getD g none) else []) ++
            Spec.groupRow i (coveringGroup s) := by
          unfold facesRows
          rw [List.length_cons, List.length_cons, hb.1, List.range_succ_eq_map, List.range_succ_eq_map]
          simp only [List.map_cons, List.map_map, List.reverse_cons, List.flatMap_append, List.flatMap_cons,
            List.flatMap_nil, List.append_nil, Nat.zero_mod, Nat.succ_eq_add_one, Nat.zero_add, if_true,
            Nat.zero_ne_one, if_false, List.getD_cons_zero, List.getD_cons_succ, Nat.one_mod, Nat.one_ne_zero,
            List.nil_append, ← List.map_reverse, List.flatMap_map, Function.comp_def, Nat.add_assoc,
            show (1 + 1 : Nat) = 2 from rfl, Nat.add_mod_right]
          simp only [List.append_assoc]
        rwa [e] at r5
    · intro g hg
      have hk := hsp g (by rw [hb.1]; exact hg)
      simp only [Nat.zero_add] at hk
      match g with
      | 0 => exact hk
      | 1 => exact hk
      | g + 2 =>
        simp only [List.getD_cons_succ] at hk
        rcases Nat.mod_two_eq_zero_or_one g with hm | hm
        · have hm' : (g + 2) % 2 = 0 := by omega
          simp only [hm', if_true, Nat.zero_ne_one, if_false] at hk ⊢
          exact hk
        · have hm' : (g + 2) % 2 = 1 := by omega
          simp only [hm', if_true, Nat.one_ne_zero, if_false] at hk ⊢
          rw [if_neg (by omega)]
          exact hk

/-! ### what does not hold -/

/-- A structure of two panels, spacing asked for. -/
def spacedStrip (sym : Bool) (sizes : List Nat) (drops : List (List Nat)) (nMax : Nat) : StripData :=
  { nPanels := 2, nPliesMax := nMax, hasMiddle := false, middleIdx := [], sizes := sizes, drops := drops,
    boundaries := [(0, 1, 1)], sym := sym, nCovering := 1, pdlSpacing := true, minDrop := 2, late0 := false }

/-- C74 (violated): the group of one ply is not looked at: whatever the plies before and after it, its penalty is
zero. -/
theorem C74_one_ply_group_violation (m : Int) (bs : List (Nat × Nat × ℚ)) (before after : Option Table)
    (pdl : Table) (h : ∀ b ∈ bs, b.1 < pdl.length ∧ b.2.1 < pdl.length) (h1 : ∀ row ∈ pdl, row.length = 1) :
    groupSpacing true m bs before after pdl = .ok 0 := by
  unfold groupSpacing
  rw [if_neg (by simp)]
  induction bs with
  | nil => rfl
  | cons b bs ih =>
    rw [List.foldlM_cons]
    obtain ⟨e1, e2⟩ := h b (by simp)
    have r1 : pyGet pdl b.1 = .ok pdl[b.1] := pyGet_eq_ok.2 (List.getElem?_eq_getElem e1)
    have r2 : pyGet pdl b.2.1 = .ok pdl[b.2.1] := pyGet_eq_ok.2 (List.getElem?_eq_getElem e2)
    have hl : pdl[b.1].length = 1 := h1 _ (List.getElem_mem e1)
    refine bind_ok.2 ⟨0, ?_, ih (fun x hx => h x (by simp [hx]))⟩
    refine bind_ok.2 ⟨_, r1, bind_ok.2 ⟨_, r2, ?_⟩⟩
    rw [if_pos (Or.inl hl)]
    rfl

/-- C74 (violated): with spacing asked for and no time limit reached, two plies in a row are dropped: the
innermost groups of the two faces of an asymmetric laminate are not compared. -/
theorem C74_junction_violation :
    SpacingOn (spacedStrip false [2, 2] [[0, 1], [0, 1]] 6)
      [[(⟨[1], [[0]]⟩, false)], [(⟨[0], [[0]]⟩, false)]] ∧
    createInitialPdl (spacedStrip false [2, 2] [[0, 1], [0, 1]] 6)
      [[(⟨[1], [[0]]⟩, false)], [(⟨[0], [[0]]⟩, false)]] =
      .ok (some [[1, 2, 3, 4, 5, 6], [1, 2, -1, -1, 3, 4]]) :=
  ⟨⟨rfl, by simp [spacedStrip], rfl, by simp⟩, by decide +kernel⟩

/-- C74 (violated): for symmetric laminates too, around a group of one ply. -/
theorem C74_one_ply_group_example_violation :
    SpacingOn (spacedStrip true [4, 1] [[0, 1], [0, 1]] 12)
      [[(⟨[3], [[0]]⟩, false)], [(⟨[0], [[0]]⟩, false)]] ∧
    createInitialPdl (spacedStrip true [4, 1] [[0, 1], [0, 1]] 12)
      [[(⟨[3], [[0]]⟩, false)], [(⟨[0], [[0]]⟩, false)]] =
      .ok (some [[1, 2, 3, 4, 5, 6, 6, 5, 4, 3, 2, 1], [1, 2, 3, 4, -1, -1, -1, -1, 4, 3, 2, 1]]) :=
  ⟨⟨rfl, by simp [spacedStrip], rfl, by simp⟩, by decide +kernel⟩

/-- The hypotheses are met: two groups, ply drops in both, a draw rejected in the second group because the
ply dropped is next to the ply dropped in the first one. -/
def spacedDraws : List (List (Draw × Bool)) :=
  [[(⟨[3], [[0]]⟩, false)], [(⟨[0], [[0]]⟩, false), (⟨[3], [[0]]⟩, false), (⟨[2], [[0]]⟩, false)]]

theorem spacedDraws_valid (sym : Bool) (nMax : Nat) :
    ValidDraws (spacedStrip sym [4, 4] [[0, 1], [0, 1]] nMax) 0 spacedDraws := by
  have key : ∀ j : Nat, j < 4 → ValidDraw
      { nDrops := [0, 1], nMax := 4, pdlSpacing := false, minDrop := 0, sym := false, boundaries := [] }
      ⟨[j], [[0]]⟩ := by
    intro j hj
    refine ⟨1, [0], by decide +kernel, by simp, ?_, rfl, ?_⟩
    · simp [Spec.MayDrop, hj]
    · simp [Spec.RestoreSamples, Spec.IsSample]
  intro k sk n d h1 h2 h3
  match k with
  | 0 =>
    simp only [spacedStrip, spacedDraws, List.getElem?_cons_zero, Option.some.injEq, Nat.zero_add] at h1 h2 h3
    subst h1 h2 h3
    intro x hx
    rw [List.mem_singleton.1 hx]
    exact key 3 (by omega)
  | 1 =>
    simp only [spacedStrip, spacedDraws, Nat.zero_add, List.getElem?_cons_succ, List.getElem?_cons_zero,
      Option.some.injEq] at h1 h2 h3
    subst h1 h2 h3
    intro x hx
    simp only [List.mem_cons, List.not_mem_nil, or_false] at hx
    rcases hx with rfl | rfl | rfl
    · exact key 0 (by omega)
    · exact key 3 (by omega)
    · exact key 2 (by omega)
  | k + 2 => simp [spacedDraws] at h1

theorem C74_example :
    ValidDraws (spacedStrip true [4, 4] [[0, 1], [0, 1]] 18) 0 spacedDraws ∧
    SpacingOn (spacedStrip true [4, 4] [[0, 1], [0, 1]] 18) spacedDraws ∧
    createInitialPdl (spacedStrip true [4, 4] [[0, 1], [0, 1]] 18) spacedDraws =
      .ok (some [[1, 2, 3, 4, 5, 6, 7, 8, 9, 9, 8, 7, 6, 5, 4, 3, 2, 1],
        [1, 2, 3, 4, -1, 5, 6, -1, 7, 7, -1, 6, 5, -1, 4, 3, 2, 1]]) ∧
    createInitialPdl (spacedStrip false [4, 4] [[0, 1], [0, 1]] 10) spacedDraws =
      .ok (some [[1, 2, 3, 4, 5, 6, 7, 8, 9, 10], [1, 2, 3, 4, -1, -1, 5, 6, 7, 8]]) :=
  ⟨spacedDraws_valid _ _, ⟨rfl, by simp [spacedStrip], rfl, by decide⟩, by decide +kernel, by decide +kernel⟩

end Bella
