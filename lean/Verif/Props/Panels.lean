import Verif.Model.Panels
import Verif.Spec.Weights
import Verif.Props.Objectives
import Verif.Proofs.Monad
import Verif.Proofs.Cons
/-
C65: panels, the filters of their targets and weightings.
-/
namespace Bella

open Spec

/-- The set of ply angles of the constraints is 0, ±45 and 90 degrees. -/
abbrev StdAngles (c : Cons) : Prop := ∀ a : Int, a ∈ c.angles ↔ a = 0 ∨ a = 45 ∨ a = -45 ∨ a = 90

theorem standardAngles_iff (c : Cons) : c.standardAngles = true ↔ StdAngles c := by
  unfold Cons.standardAngles StdAngles
  simp only [Bool.and_eq_true, List.all_eq_true, List.contains_iff_mem]
  constructor
  · rintro ⟨h1, h2⟩ a
    constructor
    · intro ha
      have := h1 a ha
      simpa using this
    · rintro (rfl | rfl | rfl | rfl)
      · exact h2 _ (by simp)
      · exact h2 _ (by simp)
      · exact h2 _ (by simp)
      · exact h2 _ (by simp)
  · intro h
    constructor
    · intro a ha
      simpa using (h a).1 ha
    · intro a ha
      apply (h a).2
      simpa using ha

/-- The lamination parameter `k` vanishes for every laminate allowed by the constraints. -/
abbrev Vanish (c : Cons) (k : Nat) : Prop :=
  Vanishing (c.sym = true) (c.bal = true) (c.standardAngles = true) k

abbrev OopoEntry (c : Cons) (k : Nat) : Prop := Oopo (c.oopo = true) k

/-- The weightings that are kept. -/
def keptWeight (c : Cons) (w : List ℚ) (k : Nat) : ℚ := if Vanish c k ∨ OopoEntry c k then 0 else w.getD k 0

/-- The average of the kept weightings that are not zero. -/
noncomputable def meanKept (c : Cons) (w : List ℚ) : ℚ :=
  (∑ k ∈ Finset.range 12, keptWeight c w k) / ((Finset.range 12).filter (fun k => keptWeight c w k ≠ 0)).card

/-- Weightings before normalisation: none for the lamination parameters that vanish, `coeff` times the average for those of
out-of-plane orthotropy, the initial ones otherwise. -/
noncomputable def rawWeight (c : Cons) (coeff : ℚ) (w : List ℚ) (k : Nat) : ℚ :=
  if Vanish c k then 0 else if OopoEntry c k then meanKept c w * coeff else w.getD k 0

theorem list12 {w : List ℚ} (h : w.length = 12) : ∃ a b c d e f g i j k l m : ℚ, w = [a, b, c, d, e, f, g, i, j, k, l, m] := by
  match w, h with
  | [a, b, c, d, e, f, g, i, j, k, l, m], _ => exact ⟨a, b, c, d, e, f, g, i, j, k, l, m, rfl⟩

theorem dropWeights_spec (c : Cons) (w : List ℚ) (hw : w.length = 12) :
    dropWeights c w = .ok ((List.range 12).map (keptWeight c w)) := by
  obtain ⟨a, b, d, e, f, g, i, j, k, l, m, n, rfl⟩ := list12 hw
  unfold dropWeights keptWeight
  rcases Bool.eq_false_or_eq_true c.sym with h1 | h1 <;> rcases Bool.eq_false_or_eq_true c.bal with h2 | h2 <;> rcases Bool.eq_false_or_eq_true c.standardAngles with h3 | h3 <;> rcases Bool.eq_false_or_eq_true c.oopo with h4 | h4 <;>
    simp [h1, h2, h3, h4, npSetSlice, npSets, npSet, Vanish, OopoEntry, Vanishing, Oopo, List.mapIdx_cons, List.range_succ,
      bind, Except.bind]

theorem filterTarget_spec (c : Cons) (t : List ℚ) (ht : t.length = 12) :
    filterTarget c t = .ok ((List.range 12).map (fun k =>
      if Vanishing (c.sym = true) (c.bal = true) False k ∨ OopoEntry c k then 0 else t.getD k 0)) := by
  obtain ⟨a, b, d, e, f, g, i, j, k, l, m, n, rfl⟩ := list12 ht
  unfold filterTarget
  rcases Bool.eq_false_or_eq_true c.sym with h1 | h1 <;> rcases Bool.eq_false_or_eq_true c.bal with h2 | h2 <;> rcases Bool.eq_false_or_eq_true c.oopo with h4 | h4 <;>
    simp [h1, h2, h4, npSetSlice, npSets, npSet, OopoEntry, Vanishing, Oopo, List.mapIdx_cons, List.range_succ,
      bind, Except.bind]

theorem range_map_sum (f : Nat → ℚ) (n : Nat) : ((List.range n).map f).sum = ∑ k ∈ Finset.range n, f k := by
  induction n with
  | zero => simp
  | succ n ih => rw [List.range_succ, List.map_append, List.sum_append, ih, Finset.sum_range_succ]; simp

theorem sum_filter_ne (l : List ℚ) : (l.filter (fun (x : ℚ) => x ≠ 0)).sum = l.sum := by
  induction l with
  | nil => rfl
  | cons a t ih =>
    by_cases h : a = 0
    · subst h; rw [List.filter_cons_of_neg (by simp), ih, List.sum_cons, zero_add]
    · rw [List.filter_cons_of_pos (by simp [h]), List.sum_cons, List.sum_cons, ih]

theorem length_filter_ne (f : Nat → ℚ) (n : Nat) : (((List.range n).map f).filter (fun (x : ℚ) => x ≠ 0)).length =
    ((Finset.range n).filter (fun k => f k ≠ 0)).card := by
  induction n with
  | zero => simp
  | succ n ih =>
    rw [List.range_succ, List.map_append, List.filter_append, List.length_append, ih, Finset.range_add_one,
      Finset.filter_insert]
    by_cases h : f n = 0
    · simp [h]
    · rw [if_pos h, Finset.card_insert_of_notMem (by simp)]
      simp [h]

theorem filterWeights_eq (c : Cons) (coeff : ℚ) (w : List ℚ) (hw : w.length = 12) :
    filterWeights c coeff w = .ok (if ∀ k < 12, keptWeight c w k = 0 then none else
      some ((List.range 12).map (fun k => rawWeight c coeff w k / ∑ k ∈ Finset.range 12, rawWeight c coeff w k))) := by
  unfold filterWeights
  rw [dropWeights_spec c w hw]
  simp only [bind, Except.bind, pure, Except.pure]
  unfold npAverage
  by_cases h0 : ∀ k < 12, keptWeight c w k = 0
  · rw [if_pos h0, if_pos]
    rw [List.filter_eq_nil_iff]
    intro x hx
    obtain ⟨k, hk, rfl⟩ := List.mem_map.1 hx
    simp [h0 k (List.mem_range.1 hk)]
  · rw [if_neg h0, if_neg]
    · rw [sum_filter_ne, length_filter_ne, range_map_sum]
      have e : oopoWeights c coeff (meanKept c w) ((List.range 12).map (keptWeight c w)) =
          Except.ok ((List.range 12).map (rawWeight c coeff w)) := by
        generalize hm : meanKept c w = m
        unfold rawWeight keptWeight oopoWeights
        rw [hm]
        rcases Bool.eq_false_or_eq_true c.sym with h1 | h1 <;> rcases Bool.eq_false_or_eq_true c.bal with h2 | h2 <;> rcases Bool.eq_false_or_eq_true c.standardAngles with h3 | h3 <;> rcases Bool.eq_false_or_eq_true c.oopo with h4 | h4 <;>
          simp [h1, h2, h3, h4, npSets, npSet, Vanish, OopoEntry, Vanishing, Oopo, List.range_succ, bind, Except.bind]
      unfold meanKept at e
      dsimp only
      rw [e]
      dsimp only
      rw [range_map_sum, List.map_map]
      rfl
    · intro hn
      apply h0
      intro k hk
      by_contra hne
      have : keptWeight c w k ∈ ((List.range 12).map (keptWeight c w)).filter (fun (x : ℚ) => x ≠ 0) := by
        rw [List.mem_filter]
        exact ⟨List.mem_map.2 ⟨k, List.mem_range.2 hk, rfl⟩, by simpa using hne⟩
      rw [hn] at this
      cases this

theorem kept_nonneg (c : Cons) (w : List ℚ) (hn : ∀ x ∈ w, 0 ≤ x) (k : Nat) : 0 ≤ keptWeight c w k := by
  unfold keptWeight
  split
  · exact le_refl _
  · rw [List.getD_eq_getElem?_getD]
    cases h : w[k]? with
    | none => simp
    | some x => simpa using hn x (List.mem_of_getElem? h)

theorem meanKept_pos (c : Cons) (w : List ℚ) (hn : ∀ x ∈ w, 0 ≤ x) (h0 : ¬ ∀ k < 12, keptWeight c w k = 0) :
    0 < meanKept c w := by
  push Not at h0
  obtain ⟨k, hk, hne⟩ := h0
  unfold meanKept
  apply div_pos
  · exact Finset.sum_pos' (fun i _ => kept_nonneg c w hn i) ⟨k, Finset.mem_range.2 hk, lt_of_le_of_ne (kept_nonneg c w hn k) hne.symm⟩
  · have : 0 < ((Finset.range 12).filter (fun k => keptWeight c w k ≠ 0)).card :=
      Finset.card_pos.2 ⟨k, by rw [Finset.mem_filter]; exact ⟨Finset.mem_range.2 hk, hne⟩⟩
    exact_mod_cast this

theorem raw_ge_kept (c : Cons) (coeff : ℚ) (hc : 0 ≤ coeff) (w : List ℚ) (hn : ∀ x ∈ w, 0 ≤ x)
    (h0 : ¬ ∀ k < 12, keptWeight c w k = 0) (k : Nat) : keptWeight c w k ≤ rawWeight c coeff w k := by
  have hm := meanKept_pos c w hn h0
  unfold keptWeight rawWeight
  by_cases h1 : Vanish c k
  · rw [if_pos (Or.inl h1), if_pos h1]
  · rw [if_neg h1]
    by_cases h2 : OopoEntry c k
    · rw [if_pos (Or.inr h2), if_pos h2]
      exact mul_nonneg hm.le hc
    · rw [if_neg (by tauto), if_neg h2]

theorem raw_sum_pos (c : Cons) (coeff : ℚ) (hc : 0 ≤ coeff) (w : List ℚ) (hn : ∀ x ∈ w, 0 ≤ x)
    (h0 : ¬ ∀ k < 12, keptWeight c w k = 0) : 0 < ∑ k ∈ Finset.range 12, rawWeight c coeff w k := by
  have h := raw_ge_kept c coeff hc w hn h0
  push Not at h0
  obtain ⟨k, hk, hne⟩ := h0
  exact Finset.sum_pos' (fun i _ => le_trans (kept_nonneg c w hn i) (h i))
    ⟨k, Finset.mem_range.2 hk, lt_of_lt_of_le (lt_of_le_of_ne (kept_nonneg c w hn k) hne.symm) (h k)⟩

/-- C65: filtering the twelve non-negative weightings of a panel never raises; the result is undefined (NaN) exactly when
every weighting is zero or is one of those dropped. -/
theorem C65_filter_defined (c : Cons) (coeff : ℚ) (w : List ℚ) (hw : w.length = 12) :
    (∃ o, filterWeights c coeff w = .ok o) ∧
    (filterWeights c coeff w = .ok none ↔ ∀ k < 12, w.getD k 0 = 0 ∨ Vanish c k ∨ OopoEntry c k) := by
  refine ⟨⟨_, filterWeights_eq c coeff w hw⟩, ?_⟩
  rw [filterWeights_eq c coeff w hw, Except.ok.injEq]
  have e : (∀ k < 12, keptWeight c w k = 0) ↔ ∀ k < 12, w.getD k 0 = 0 ∨ Vanish c k ∨ OopoEntry c k := by
    apply forall₂_congr
    intro k hk
    unfold keptWeight
    by_cases h : Vanish c k ∨ OopoEntry c k
    · simp [h]
    · rw [if_neg h]; tauto
  rw [← e]
  split <;> simp_all

/-- C65: the filtered weightings are twelve non-negative numbers whose sum is 1. -/
theorem C65_filter_normalised (c : Cons) (coeff : ℚ) (hc : 0 ≤ coeff) (w W : List ℚ) (hw : w.length = 12)
    (hn : ∀ x ∈ w, 0 ≤ x) (h : filterWeights c coeff w = .ok (some W)) :
    W.length = 12 ∧ (∀ x ∈ W, 0 ≤ x) ∧ W.sum = 1 := by
  rw [filterWeights_eq c coeff w hw, Except.ok.injEq] at h
  split at h
  · cases h
  rename_i h0
  have hS := raw_sum_pos c coeff hc w hn h0
  have h := Option.some.inj h
  subst h
  refine ⟨by simp, ?_, ?_⟩
  · intro x hx
    obtain ⟨k, _, rfl⟩ := List.mem_map.1 hx
    exact div_nonneg (le_trans (kept_nonneg c w hn k) (raw_ge_kept c coeff hc w hn h0 k)) hS.le
  · rw [range_map_sum, ← Finset.sum_div, div_self hS.ne']

/-- C65: what the filtered weightings are.  There is a positive total `S` such that the weighting of every lamination parameter is
0 if it vanishes for every laminate allowed, the coefficient of out-of-plane orthotropy times the average of the kept
weightings over `S` if it measures out-of-plane orthotropy and that is requested, and the initial weighting over `S`
otherwise. -/
theorem C65_filter_values (c : Cons) (coeff : ℚ) (hc : 0 ≤ coeff) (w W : List ℚ) (hw : w.length = 12)
    (hn : ∀ x ∈ w, 0 ≤ x) (h : filterWeights c coeff w = .ok (some W)) :
    ∃ S : ℚ, 0 < S ∧ 0 < meanKept c w ∧ ∀ k < 12,
      (Vanish c k → W.getD k 0 = 0) ∧
      (¬ Vanish c k → OopoEntry c k → W.getD k 0 = meanKept c w * coeff / S) ∧
      (¬ Vanish c k → ¬ OopoEntry c k → W.getD k 0 = w.getD k 0 / S) := by
  rw [filterWeights_eq c coeff w hw, Except.ok.injEq] at h
  split at h
  · cases h
  rename_i h0
  have hS := raw_sum_pos c coeff hc w hn h0
  have h := Option.some.inj h
  subst h
  refine ⟨_, hS, meanKept_pos c w hn h0, ?_⟩
  intro k hk
  have e : ∀ (f : Nat → ℚ), ((List.range 12).map f).getD k 0 = f k := by
    intro f
    simp [List.getD_eq_getElem?_getD, hk]
  rw [e]
  refine ⟨?_, ?_, ?_⟩
  · intro h1
    unfold rawWeight
    rw [if_pos h1, zero_div]
  · intro h1 h2
    conv_lhs => rw [rawWeight, if_neg h1, if_pos h2]
  · intro h1 h2
    conv_lhs => rw [rawWeight, if_neg h1, if_neg h2]

/-- C65: only the ratios of the weightings matter: multiplying all of them by a positive number changes nothing. -/
theorem C65_filter_scale (c : Cons) (coeff s : ℚ) (w : List ℚ) (hw : w.length = 12) (hs : 0 < s) :
    filterWeights c coeff (w.map (fun x => s * x)) = filterWeights c coeff w := by
  have g : ∀ k, (w.map (fun x => s * x)).getD k 0 = s * w.getD k 0 := by
    intro k
    simp only [List.getD_eq_getElem?_getD, List.getElem?_map]
    cases w[k]? <;> simp
  have e1 : ∀ k, keptWeight c (w.map (fun x => s * x)) k = s * keptWeight c w k := by
    intro k
    unfold keptWeight
    rw [g]
    split <;> simp
  have e2 : meanKept c (w.map (fun x => s * x)) = s * meanKept c w := by
    unfold meanKept
    simp only [e1, ← Finset.mul_sum, mul_ne_zero_iff]
    rw [mul_div_assoc]
    simp [hs.ne']
  have e3 : ∀ k, rawWeight c coeff (w.map (fun x => s * x)) k = s * rawWeight c coeff w k := by
    intro k
    unfold rawWeight
    rw [g, e2]
    split
    · simp
    · split
      · ring
      · rfl
  rw [filterWeights_eq _ _ _ (by simpa using hw), filterWeights_eq _ _ _ hw]
  simp only [e1, e3, ← Finset.mul_sum, mul_eq_zero, hs.ne', false_or]
  congr 3
  apply List.map_congr_left
  intro k _
  rw [mul_div_mul_left _ _ hs.ne']

/-- C65: the filtered targets are zero for the lamination parameters that vanish because of symmetry or balance and for those of
out-of-plane orthotropy when it is requested; the other targets are unchanged. -/
theorem C65_targets (c : Cons) (t : List ℚ) (ht : t.length = 12) :
    ∃ T, filterTarget c t = .ok T ∧ T.length = 12 ∧ ∀ k < 12,
      T.getD k 0 = if (c.sym = true ∧ 4 ≤ k ∧ k < 8) ∨ (c.bal = true ∧ (k = 2 ∨ k = 3)) ∨ (c.oopo = true ∧ (k = 10 ∨ k = 11))
        then 0 else t.getD k 0 := by
  refine ⟨_, filterTarget_spec c t ht, by simp, ?_⟩
  intro k hk
  have e : ∀ (f : Nat → ℚ), ((List.range 12).map f).getD k 0 = f k := by
    intro f
    simp [List.getD_eq_getElem?_getD, hk]
  rw [e]
  have i : (Vanishing (c.sym = true) (c.bal = true) False k ∨ OopoEntry c k) ↔
      ((c.sym = true ∧ 4 ≤ k ∧ k < 8) ∨ (c.bal = true ∧ (k = 2 ∨ k = 3)) ∨ (c.oopo = true ∧ (k = 10 ∨ k = 11))) := by
    unfold Vanishing OopoEntry Oopo
    have : (k = 4 ∨ k = 5 ∨ k = 6 ∨ k = 7) ↔ 4 ≤ k ∧ k < 8 := by omega
    rw [this]
    tauto
  simp only [i]

/-- C65: the objective of a panel with filtered targets and weightings.  Up to a positive factor it is the sum over the lamination
parameters that do not vanish of the initial weighting times the squared distance to the target, a lamination parameter of
out-of-plane orthotropy counting for `coeff` times the average weighting and the distance to zero. -/
theorem C65_objective (c : Cons) (coeff : ℚ) (hc : 0 ≤ coeff) (w W t T lam : List ℚ) (r : ℚ) (hw : w.length = 12)
    (hn : ∀ x ∈ w, 0 ≤ x) (ht : t.length = 12) (h : filterWeights c coeff w = .ok (some W))
    (hT : filterTarget c t = .ok T) (hr : objOnePanel lam T W = .ok r) :
    ∃ S : ℚ, 0 < S ∧ r * S = ∑ k ∈ Finset.range 12, if Vanish c k then 0
      else if OopoEntry c k then meanKept c w * coeff * lam.getD k 0 ^ 2
      else w.getD k 0 * (lam.getD k 0 - t.getD k 0) ^ 2 := by
  obtain ⟨S, hS, _, hv⟩ := C65_filter_values c coeff hc w W hw hn h
  obtain ⟨T', hT', hTl, hTv⟩ := C65_targets c t ht
  rw [hT] at hT'
  have hT' := Except.ok.inj hT'
  subst hT'
  have hlen : lam.length = 12 := by
    unfold objOnePanel at hr
    split at hr
    · omega
    · cases hr
  refine ⟨S, hS, ?_⟩
  rw [C23_one_panel _ _ _ _ hr]
  unfold sqDist
  rw [hlen, Finset.sum_mul]
  apply Finset.sum_congr rfl
  intro k hk
  have hk := Finset.mem_range.1 hk
  obtain ⟨v1, v2, v3⟩ := hv k hk
  have tv := hTv k hk
  by_cases h1 : Vanish c k
  · rw [if_pos h1, v1 h1]; ring
  · rw [if_neg h1]
    by_cases h2 : OopoEntry c k
    · rw [if_pos h2, v2 h1 h2]
      have : T.getD k 0 = 0 := by
        rw [tv, if_pos]
        exact Or.inr (Or.inr h2)
      rw [this, sub_zero]
      field_simp
    · rw [if_neg h2, v3 h1 h2]
      have : T.getD k 0 = t.getD k 0 := by
        rw [tv, if_neg]
        rintro (⟨a1, a2⟩ | a1 | a1)
        · exact h1 (Or.inl ⟨a1, by omega⟩)
        · exact h1 (Or.inr (Or.inr a1))
        · exact h2 a1
      rw [this]
      field_simp

/-- C65: what a panel holds: the constructor accepts exactly a positive number of plies and non-negative areas, lengths and
weightings; the middle ply exists exactly for an odd number of plies of a symmetric laminate, and the area is the product of the two
lengths when both are given. -/
theorem C65_constructor (sym : Bool) (a : PanelArgs) (p : Panel) :
    mkPanel sym a = .ok p ↔ 1 ≤ a.nPlies ∧ 0 ≤ a.area ∧ 0 ≤ a.lengthX ∧ 0 ≤ a.lengthY ∧ 0 ≤ a.weighting ∧
      (∀ x ∈ a.weights, 0 ≤ x) ∧
      p = { nPlies := a.nPlies.toNat
            hasMiddle := decide (sym = true ∧ Odd a.nPlies)
            middle := if sym = true ∧ Odd a.nPlies then (a.nPlies.toNat + 1) / 2 else 0
            target := a.target
            weightsIni := a.weights
            area := if 0 < a.lengthX ∧ 0 < a.lengthY then a.lengthX * a.lengthY else a.area
            weighting := a.weighting } := by
  have odd : (sym && a.nPlies % 2 == 1) = decide (sym = true ∧ Odd a.nPlies) := by
    rw [Bool.eq_iff_iff]
    simp only [Bool.and_eq_true, beq_iff_eq, decide_eq_true_eq, Int.odd_iff]
  have hany : (a.weights.any (fun (x : ℚ) => x < 0) = true) ↔ ¬ ∀ x ∈ a.weights, 0 ≤ x := by
    rw [List.any_eq_true]
    push Not
    simp
  unfold mkPanel setNPlies
  rw [odd]
  by_cases h1 : a.nPlies < 1
  · rw [if_pos h1]
    constructor
    · intro h; cases h
    · rintro ⟨h, _⟩; omega
  rw [if_neg h1]
  simp only [hany]
  by_cases h2 : a.area < 0
  · have : ¬ 0 ≤ a.area := by linarith
    split <;> simp [bind, Except.bind, h2, this]
  by_cases h3 : a.lengthX < 0
  · have : ¬ 0 ≤ a.lengthX := by linarith
    split <;> simp [bind, Except.bind, h2, h3, this]
  by_cases h4 : a.lengthY < 0
  · have : ¬ 0 ≤ a.lengthY := by linarith
    split <;> simp [bind, Except.bind, h2, h3, h4, this]
  by_cases h5 : a.weighting < 0
  · have : ¬ 0 ≤ a.weighting := by linarith
    split <;> simp [bind, Except.bind, h2, h3, h4, h5, this]
  by_cases h6 : ∀ x ∈ a.weights, 0 ≤ x
  · have e6 : (∀ x ∈ a.weights, 0 ≤ x) ↔ True := iff_true_intro h6
    have p1 : 1 ≤ a.nPlies := by omega
    have p2 := not_lt.1 h2
    have p3 := not_lt.1 h3
    have p4 := not_lt.1 h4
    have p5 := not_lt.1 h5
    have ar : (a.lengthX ≠ 0 ∧ a.lengthY ≠ 0) ↔ (0 < a.lengthX ∧ 0 < a.lengthY) := by
      constructor
      · rintro ⟨x, y⟩
        exact ⟨lt_of_le_of_ne p3 x.symm, lt_of_le_of_ne p4 y.symm⟩
      · rintro ⟨x, y⟩
        exact ⟨x.ne', y.ne'⟩
    by_cases ho : sym = true ∧ Odd a.nPlies
    · simp only [ho, and_self, decide_true, if_true, bind, Except.bind, h2, h3, h4, h5, if_false, not_true, pure, Except.pure,
        ar, Except.ok.injEq, p1, p2, p3, p4, p5, true_and, e6]
      constructor
      · intro h; exact h.symm
      · intro h; exact h.symm
    · simp only [ho, decide_false, Bool.false_eq_true, if_false, bind, Except.bind, h2, h3, h4, h5, not_true, pure, Except.pure,
        ar, Except.ok.injEq, p1, p2, p3, p4, p5, true_and, e6]
      constructor
      · intro h; exact h.symm
      · intro h; exact h.symm
  · split <;> simp [bind, Except.bind, h2, h3, h4, h5, h6]

/-- C65, violation: the documented test that there are twelve weightings accepts any number of them; filtering then raises. -/
theorem C65_size_violation (c : Cons) (coeff : ℚ) (hb : c.bal = true) (hs : c.sym = false) (ha : c.standardAngles = false) :
    (∃ p, mkPanel false { nPlies := 8, weights := [1, 1] } = .ok p ∧ p.weightsIni = [1, 1]) ∧
      filterWeights c coeff [1, 1] = .error .indexError := by
  constructor
  · exact ⟨_, (C65_constructor false { nPlies := 8, weights := [1, 1] } _).2
      ⟨by norm_num, by norm_num, by norm_num, by norm_num, by norm_num, by simp, rfl⟩, rfl⟩
  · unfold filterWeights dropWeights
    simp [hb, hs, ha, npSets, npSet, bind, Except.bind]

/-- C65, violation: the default target (an empty array) makes the filter of the targets raise for balanced laminates. -/
theorem C65_default_target_violation (c : Cons) (hb : c.bal = true) :
    ({ nPlies := 8 } : PanelArgs).target = [] ∧ filterTarget c [] = .error .indexError := by
  refine ⟨rfl, ?_⟩
  unfold filterTarget
  rcases Bool.eq_false_or_eq_true c.sym with hs | hs <;> simp [hb, hs, npSets, npSet, npSetSlice, bind, Except.bind]

end Bella
