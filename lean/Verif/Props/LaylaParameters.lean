import Verif.Model.LaylaParameters
import Verif.Model.LaylaConstraints
import Verif.Props.Constraints
import Verif.Props.Panels
import Verif.Props.Parameters
/-
C77: the parameters of LAYLA (src/LAYLA_V02/parameters.py) and its targets (targets.py).
-/
open Spec
namespace Bella

/-- The lamination parameter `k` has no weighting of its own: it vanishes for every laminate allowed by symmetry and by the set of
orientations. -/
def LaylaVanish (c : Cons) (k : Nat) : Prop :=
  (c.sym = true ∧ 4 ≤ k ∧ k < 8) ∨ (StdAngles c ∧ (k = 3 ∨ k = 7 ∨ k = 11))

/-- The lamination parameter `k` must vanish for in-plane orthotropy. -/
def LaylaIpo (c : Cons) (k : Nat) : Prop := c.ipo = true ∧ (k = 2 ∨ k = 3)

/-- The lamination parameter `k` must vanish for out-of-plane orthotropy. -/
def LaylaOopo (c : Cons) (k : Nat) : Prop := c.oopo = true ∧ (k = 10 ∨ k = 11)

/-- The weighting asked for. -/
def asked (sens mask : List ℚ) (k : Nat) : ℚ := sens.getD k 0 * mask.getD k 0

open Classical in
/-- The weightings asked for that are kept: not those of the lamination parameters that vanish or must vanish. -/
noncomputable def laylaKept (c : Cons) (sens mask : List ℚ) (k : Nat) : ℚ :=
  if LaylaVanish c k ∨ LaylaIpo c k ∨ LaylaOopo c k then 0 else asked sens mask k

/-- The average of the kept weightings that are not zero. -/
noncomputable def laylaMean (c : Cons) (sens mask : List ℚ) : ℚ :=
  (∑ k ∈ Finset.range 12, laylaKept c sens mask k) /
    ((Finset.range 12).filter (fun k => laylaKept c sens mask k ≠ 0)).card

/-- The case in which the weighting of the lamination parameter 10 is overwritten although out-of-plane orthotropy is not required. -/
def LaylaLost (c : Cons) (sw : Bool) (k : Nat) : Prop :=
  StdAngles c ∧ c.ipo = true ∧ sw = true ∧ c.oopo = false ∧ k = 10

open Classical in
/-- The weightings before normalisation. -/
noncomputable def laylaRaw (c : Cons) (sw : Bool) (ci co : ℚ) (sens mask : List ℚ) (k : Nat) : ℚ :=
  if LaylaVanish c k then 0
  else if LaylaIpo c k then (if sw = true then laylaMean c sens mask * ci else 0)
  else if LaylaOopo c k ∨ LaylaLost c sw k then laylaMean c sens mask * co
  else asked sens mask k

theorem asked_list (sens mask : List ℚ) (hs : sens.length = 12) (hm : mask.length = 12) :
    npMul sens mask = .ok ((List.range 12).map (asked sens mask)) := by
  obtain ⟨a, b, d, e, f, g, i, j, k, l, m, n, rfl⟩ := list12 hs
  obtain ⟨a', b', d', e', f', g', i', j', k', l', m', n', rfl⟩ := list12 hm
  simp [npMul, asked, List.range_succ]

theorem kept_list (c : Cons) (f : Nat → ℚ) :
    laylaDrop c ((List.range 12).map f) =
    .ok ((List.range 12).map (open Classical in fun k => if LaylaVanish c k ∨ LaylaIpo c k ∨ LaylaOopo c k then 0 else f k)) := by
  have hstd := standardAngles_iff c
  unfold laylaDrop LaylaVanish LaylaIpo LaylaOopo
  rw [← hstd]
  rcases Bool.eq_false_or_eq_true c.sym with h1 | h1 <;> rcases Bool.eq_false_or_eq_true c.ipo with h2 | h2 <;>
    rcases Bool.eq_false_or_eq_true c.standardAngles with h3 | h3 <;> rcases Bool.eq_false_or_eq_true c.oopo with h4 | h4 <;>
    simp [h1, h2, h3, h4, npMul, npSetSlice, npSets, npSet, List.mapIdx_cons, List.range_succ, List.replicate, bind, Except.bind]

theorem raw_list (c : Cons) (sw : Bool) (ci co : ℚ) (f : Nat → ℚ) :
    laylaPenaltyWeights c sw ci co
      ((List.range 12).map (open Classical in fun k => if LaylaVanish c k ∨ LaylaIpo c k ∨ LaylaOopo c k then 0 else f k)) =
    .ok ((List.range 12).map (open Classical in fun k => if LaylaVanish c k then 0
      else if LaylaIpo c k then (if sw = true then ci else 0)
      else if LaylaOopo c k ∨ LaylaLost c sw k then co
      else f k)) := by
  have hstd := standardAngles_iff c
  unfold laylaPenaltyWeights LaylaVanish LaylaIpo LaylaOopo LaylaLost
  rw [← hstd]
  rcases Bool.eq_false_or_eq_true c.sym with h1 | h1 <;> rcases Bool.eq_false_or_eq_true c.ipo with h2 | h2 <;>
    rcases Bool.eq_false_or_eq_true c.standardAngles with h3 | h3 <;> rcases Bool.eq_false_or_eq_true c.oopo with h4 | h4 <;>
    cases sw <;>
    simp [h1, h2, h3, h4, npSets, npSet, List.range_succ, bind, Except.bind]

theorem filter_range_nil (f : Nat → ℚ) : ((List.range 12).map f).filter (fun (x : ℚ) => x ≠ 0) = [] ↔ ∀ k < 12, f k = 0 := by
  rw [List.filter_eq_nil_iff]
  constructor
  · intro h k hk
    by_contra hne
    exact h (f k) (List.mem_map.2 ⟨k, List.mem_range.2 hk, rfl⟩) (by simpa using hne)
  · rintro h x hx
    obtain ⟨k, hk, rfl⟩ := List.mem_map.1 hx
    simp [h k (List.mem_range.1 hk)]

theorem laylaWeights_eq (c : Cons) (sw : Bool) (ci co : ℚ) (sens mask : List ℚ) (hs : sens.length = 12) (hm : mask.length = 12) :
    laylaWeights c sw ci co sens mask =
      if ∑ k ∈ Finset.range 12, asked sens mask k = 0 then
        .error (.exc "objective function lamination parameter weightings are all 0s")
      else .ok (open Classical in if (∀ k < 12, laylaKept c sens mask k = 0) ∨ ∑ k ∈ Finset.range 12, laylaRaw c sw ci co sens mask k = 0
          then none
          else some ((List.range 12).map (fun k => laylaRaw c sw ci co sens mask k /
            ∑ k ∈ Finset.range 12, laylaRaw c sw ci co sens mask k)),
        (List.range 12).map (fun k => asked sens mask k / ∑ k ∈ Finset.range 12, asked sens mask k)) := by
  unfold laylaWeights
  rw [asked_list sens mask hs hm]
  simp only [bind, Except.bind]
  rw [range_map_sum]
  by_cases hT : ∑ k ∈ Finset.range 12, asked sens mask k = 0
  · rw [if_pos hT, if_pos hT]
  rw [if_neg hT, if_neg hT]
  dsimp only
  generalize hTe : ∑ k ∈ Finset.range 12, asked sens mask k = T at hT ⊢
  rw [List.map_map]
  rw [kept_list c ((fun (x : ℚ) => x / T) ∘ asked sens mask)]
  dsimp only
  have hkept : ((List.range 12).map (open Classical in fun k => if LaylaVanish c k ∨ LaylaIpo c k ∨ LaylaOopo c k then 0
      else ((fun (x : ℚ) => x / T) ∘ asked sens mask) k)) =
      (List.range 12).map (fun k => laylaKept c sens mask k / T) := by
    apply List.map_congr_left
    intro k _
    unfold laylaKept
    split_ifs <;> simp
  unfold npAverage
  have hz : ((List.range 12).map (open Classical in fun k => if LaylaVanish c k ∨ LaylaIpo c k ∨ LaylaOopo c k then 0
      else ((fun (x : ℚ) => x / T) ∘ asked sens mask) k)).filter (fun (x : ℚ) => x ≠ 0) = [] ↔
      ∀ k < 12, laylaKept c sens mask k = 0 := by
    rw [hkept, filter_range_nil]
    simp [hT]
  by_cases h0 : ∀ k < 12, laylaKept c sens mask k = 0
  · rw [if_pos (hz.2 h0)]
    simp only [pure, Except.pure]
    rw [if_pos (Or.inl h0)]
    rfl
  rw [if_neg (fun h => h0 (hz.1 h))]
  dsimp only
  rw [raw_list]
  have hmean : (((List.range 12).map (open Classical in fun k => if LaylaVanish c k ∨ LaylaIpo c k ∨ LaylaOopo c k then 0
      else ((fun (x : ℚ) => x / T) ∘ asked sens mask) k)).filter (fun (x : ℚ) => x ≠ 0)).sum /
      (((List.range 12).map (open Classical in fun k => if LaylaVanish c k ∨ LaylaIpo c k ∨ LaylaOopo c k then 0
      else ((fun (x : ℚ) => x / T) ∘ asked sens mask) k)).filter (fun (x : ℚ) => x ≠ 0)).length = laylaMean c sens mask / T := by
    rw [hkept, sum_filter_ne, length_filter_ne, range_map_sum, ← Finset.sum_div]
    unfold laylaMean
    have : (Finset.range 12).filter (fun k => laylaKept c sens mask k / T ≠ 0) =
        (Finset.range 12).filter (fun k => laylaKept c sens mask k ≠ 0) := by
      apply Finset.filter_congr
      intro k _
      simp [hT]
    rw [this]
    ring
  rw [hmean]
  have hraw : ((List.range 12).map (open Classical in fun k => if LaylaVanish c k then 0
      else if LaylaIpo c k then (if sw = true then laylaMean c sens mask / T * ci else 0)
      else if LaylaOopo c k ∨ LaylaLost c sw k then laylaMean c sens mask / T * co
      else ((fun (x : ℚ) => x / T) ∘ asked sens mask) k)) =
      (List.range 12).map (fun k => laylaRaw c sw ci co sens mask k / T) := by
    apply List.map_congr_left
    intro k _
    unfold laylaRaw
    split_ifs <;> first | (simp; done) | (simp only [Function.comp]; ring) | ring
  rw [hraw]
  simp only [pure, Except.pure]
  rw [range_map_sum, ← Finset.sum_div]
  by_cases hR : ∑ k ∈ Finset.range 12, laylaRaw c sw ci co sens mask k = 0
  · rw [if_pos (by rw [hR, zero_div]), if_pos (Or.inr hR)]
    rfl
  · rw [if_neg (div_ne_zero hR hT), if_neg (by rintro (h | h); exact h0 h; exact hR h), List.map_map]
    congr 2
    congr 1
    apply List.map_congr_left
    intro k _
    simp only [Function.comp]
    field_simp

theorem asked_nonneg (sens mask : List ℚ) (hn : ∀ x ∈ sens, 0 ≤ x) (hb : ∀ x ∈ mask, x = 0 ∨ x = 1) (k : Nat) :
    0 ≤ asked sens mask k := by
  unfold asked
  apply mul_nonneg
  · rw [List.getD_eq_getElem?_getD]
    cases h : sens[k]? with
    | none => simp
    | some x => exact hn x (List.mem_of_getElem? h)
  · rw [List.getD_eq_getElem?_getD]
    cases h : mask[k]? with
    | none => simp
    | some x => rcases hb x (List.mem_of_getElem? h) with e | e <;> simp [e]

theorem laylaKept_nonneg (c : Cons) (sens mask : List ℚ) (hn : ∀ x ∈ sens, 0 ≤ x) (hb : ∀ x ∈ mask, x = 0 ∨ x = 1) (k : Nat) :
    0 ≤ laylaKept c sens mask k := by
  unfold laylaKept
  split
  · exact le_refl _
  · exact asked_nonneg sens mask hn hb k

theorem laylaMean_nonneg (c : Cons) (sens mask : List ℚ) (hn : ∀ x ∈ sens, 0 ≤ x) (hb : ∀ x ∈ mask, x = 0 ∨ x = 1) :
    0 ≤ laylaMean c sens mask :=
  div_nonneg (Finset.sum_nonneg (fun i _ => laylaKept_nonneg c sens mask hn hb i)) (by positivity)

theorem laylaMean_pos (c : Cons) (sens mask : List ℚ) (hn : ∀ x ∈ sens, 0 ≤ x) (hb : ∀ x ∈ mask, x = 0 ∨ x = 1)
    (h0 : ¬ ∀ k < 12, laylaKept c sens mask k = 0) : 0 < laylaMean c sens mask := by
  push Not at h0
  obtain ⟨k, hk, hne⟩ := h0
  unfold laylaMean
  apply div_pos
  · exact Finset.sum_pos' (fun i _ => laylaKept_nonneg c sens mask hn hb i)
      ⟨k, Finset.mem_range.2 hk, lt_of_le_of_ne (laylaKept_nonneg c sens mask hn hb k) hne.symm⟩
  · have : 0 < ((Finset.range 12).filter (fun k => laylaKept c sens mask k ≠ 0)).card :=
      Finset.card_pos.2 ⟨k, Finset.mem_filter.2 ⟨Finset.mem_range.2 hk, hne⟩⟩
    exact_mod_cast this

theorem laylaRaw_nonneg (c : Cons) (sw : Bool) (ci co : ℚ) (sens mask : List ℚ) (hn : ∀ x ∈ sens, 0 ≤ x)
    (hb : ∀ x ∈ mask, x = 0 ∨ x = 1) (hi : 0 ≤ ci) (ho : 0 ≤ co) (k : Nat) : 0 ≤ laylaRaw c sw ci co sens mask k := by
  have hm := laylaMean_nonneg c sens mask hn hb
  unfold laylaRaw
  split_ifs
  · exact le_refl _
  · exact mul_nonneg hm hi
  · exact le_refl _
  · exact mul_nonneg hm ho
  · exact asked_nonneg sens mask hn hb k

/-- C77: weightings are refused exactly when no lamination parameter to optimise has a positive sensitivity. -/
theorem C77_weights_refused (c : Cons) (sw : Bool) (ci co : ℚ) (sens mask : List ℚ) (hs : sens.length = 12)
    (hm : mask.length = 12) (hn : ∀ x ∈ sens, 0 ≤ x) (hb : ∀ x ∈ mask, x = 0 ∨ x = 1) :
    (∃ e, laylaWeights c sw ci co sens mask = .error e) ↔ ∀ k < 12, sens.getD k 0 = 0 ∨ mask.getD k 0 = 0 := by
  rw [laylaWeights_eq c sw ci co sens mask hs hm]
  have e : ∑ k ∈ Finset.range 12, asked sens mask k = 0 ↔ ∀ k < 12, sens.getD k 0 = 0 ∨ mask.getD k 0 = 0 := by
    rw [Finset.sum_eq_zero_iff_of_nonneg (fun i _ => asked_nonneg sens mask hn hb i)]
    simp only [Finset.mem_range, asked, mul_eq_zero]
  rw [← e]
  split_ifs with h
  · simp [h]
  · simp [h]

/-- C77: the initial weightings are the sensitivities of the lamination parameters to optimise, scaled so that they add up to 1. -/
theorem C77_weights_initial (c : Cons) (sw : Bool) (ci co : ℚ) (sens mask : List ℚ) (hs : sens.length = 12)
    (hm : mask.length = 12) (hn : ∀ x ∈ sens, 0 ≤ x) (hb : ∀ x ∈ mask, x = 0 ∨ x = 1) (F : Option (List ℚ)) (I : List ℚ)
    (h : laylaWeights c sw ci co sens mask = .ok (F, I)) :
    I.length = 12 ∧ (∀ x ∈ I, 0 ≤ x) ∧ I.sum = 1 ∧
    ∃ T : ℚ, 0 < T ∧ ∀ k < 12, I.getD k 0 = sens.getD k 0 * mask.getD k 0 / T := by
  rw [laylaWeights_eq c sw ci co sens mask hs hm] at h
  split at h
  · cases h
  rename_i hT
  have hT' : 0 < ∑ k ∈ Finset.range 12, asked sens mask k :=
    lt_of_le_of_ne (Finset.sum_nonneg (fun i _ => asked_nonneg sens mask hn hb i)) (Ne.symm hT)
  obtain ⟨_, rfl⟩ := Prod.mk.inj (Except.ok.inj h)
  refine ⟨by simp, ?_, ?_, _, hT', ?_⟩
  · intro x hx
    obtain ⟨k, _, rfl⟩ := List.mem_map.1 hx
    exact div_nonneg (asked_nonneg sens mask hn hb k) hT'.le
  · rw [range_map_sum, ← Finset.sum_div, div_self hT]
  · intro k hk
    simp [List.getD_eq_getElem?_getD, List.getElem?_map, List.getElem?_range hk, asked]

/-- C77: the final weightings are not negative, add up to 1, and are in the proportions of the initial ones for the lamination
parameters that may differ from zero; those that vanish for every laminate allowed get none; those of in-plane orthotropy get
`coeff_bal_ipo` times the average if its penalty is on and none otherwise, and those of out-of-plane orthotropy `coeff_oopo` times
the average. -/
theorem C77_weights_final (c : Cons) (sw : Bool) (ci co : ℚ) (sens mask : List ℚ) (hs : sens.length = 12)
    (hm : mask.length = 12) (hn : ∀ x ∈ sens, 0 ≤ x) (hb : ∀ x ∈ mask, x = 0 ∨ x = 1) (hi : 0 ≤ ci) (ho : 0 ≤ co)
    (W I : List ℚ) (h : laylaWeights c sw ci co sens mask = .ok (some W, I)) :
    W.length = 12 ∧ (∀ x ∈ W, 0 ≤ x) ∧ W.sum = 1 ∧
    ∃ S : ℚ, 0 < S ∧ 0 < laylaMean c sens mask ∧ ∀ k < 12,
      (LaylaVanish c k → W.getD k 0 = 0) ∧
      (¬ LaylaVanish c k → LaylaIpo c k → W.getD k 0 = if sw = true then laylaMean c sens mask * ci / S else 0) ∧
      (¬ LaylaVanish c k → LaylaOopo c k → W.getD k 0 = laylaMean c sens mask * co / S) ∧
      (¬ LaylaVanish c k → ¬ LaylaIpo c k → ¬ LaylaOopo c k → ¬ LaylaLost c sw k →
        W.getD k 0 = sens.getD k 0 * mask.getD k 0 / S) ∧
      (LaylaLost c sw k → W.getD k 0 = laylaMean c sens mask * co / S) := by
  rw [laylaWeights_eq c sw ci co sens mask hs hm] at h
  split at h
  · cases h
  obtain ⟨h, _⟩ := Prod.mk.inj (Except.ok.inj h)
  split at h
  · cases h
  rename_i hz
  rw [not_or] at hz
  have hS : 0 < ∑ k ∈ Finset.range 12, laylaRaw c sw ci co sens mask k :=
    lt_of_le_of_ne (Finset.sum_nonneg (fun i _ => laylaRaw_nonneg c sw ci co sens mask hn hb hi ho i)) (Ne.symm hz.2)
  have h := (Option.some.inj h).symm
  subst h
  refine ⟨by simp, ?_, ?_, _, hS, laylaMean_pos c sens mask hn hb hz.1, ?_⟩
  · intro x hx
    obtain ⟨k, _, rfl⟩ := List.mem_map.1 hx
    exact div_nonneg (laylaRaw_nonneg c sw ci co sens mask hn hb hi ho k) hS.le
  · rw [range_map_sum, ← Finset.sum_div, div_self hz.2]
  · intro k hk
    have e : ((List.range 12).map (fun k => laylaRaw c sw ci co sens mask k /
        ∑ k ∈ Finset.range 12, laylaRaw c sw ci co sens mask k)).getD k 0 = laylaRaw c sw ci co sens mask k /
        ∑ k ∈ Finset.range 12, laylaRaw c sw ci co sens mask k := by
      simp [List.getD_eq_getElem?_getD, List.getElem?_map, List.getElem?_range hk]
    rw [e]
    generalize ∑ k ∈ Finset.range 12, laylaRaw c sw ci co sens mask k = S
    unfold laylaRaw
    refine ⟨fun g => by rw [if_pos g, zero_div], fun g g1 => ?_, fun g g1 => ?_, fun g g1 g2 g3 => ?_, fun g => ?_⟩
    · rw [if_neg g, if_pos g1]
      split_ifs <;> simp
    · rw [if_neg g, if_neg, if_pos (Or.inl g1)]
      unfold LaylaIpo LaylaOopo at *
      omega
    · rw [if_neg g, if_neg g1, if_neg (not_or.2 ⟨g2, g3⟩)]
      rfl
    · have h1 : ¬ LaylaVanish c k := by
        unfold LaylaVanish LaylaLost at *
        omega
      have h2 : ¬ LaylaIpo c k := by
        unfold LaylaIpo LaylaLost at *
        omega
      rw [if_neg h1, if_neg h2, if_pos (Or.inr g)]

/-- C77: the final weightings are not numbers exactly when every lamination parameter with a weighting vanishes or must vanish. -/
theorem C77_weights_nan (c : Cons) (sw : Bool) (ci co : ℚ) (sens mask : List ℚ) (hs : sens.length = 12)
    (hm : mask.length = 12) (hn : ∀ x ∈ sens, 0 ≤ x) (hb : ∀ x ∈ mask, x = 0 ∨ x = 1) (hi : 0 ≤ ci) (ho : 0 ≤ co)
    (hl : ¬ LaylaLost c sw 10) (F : Option (List ℚ)) (I : List ℚ) (h : laylaWeights c sw ci co sens mask = .ok (F, I)) :
    F = none ↔ ∀ k < 12, sens.getD k 0 * mask.getD k 0 ≠ 0 → LaylaVanish c k ∨ LaylaIpo c k ∨ LaylaOopo c k := by
  rw [laylaWeights_eq c sw ci co sens mask hs hm] at h
  split at h
  · cases h
  obtain ⟨h, _⟩ := Prod.mk.inj (Except.ok.inj h)
  rw [← h]
  have e : (∀ k < 12, laylaKept c sens mask k = 0) ↔
      ∀ k < 12, sens.getD k 0 * mask.getD k 0 ≠ 0 → LaylaVanish c k ∨ LaylaIpo c k ∨ LaylaOopo c k := by
    apply forall₂_congr
    intro k _
    unfold laylaKept asked
    split_ifs with g
    · simp [g]
    · exact ⟨fun h h' => absurd h h', fun h => by_contra (fun hne => g (h hne))⟩
  rw [← e]
  have hr : ∑ k ∈ Finset.range 12, laylaRaw c sw ci co sens mask k = 0 → ∀ k < 12, laylaKept c sens mask k = 0 := by
    intro hz k hk
    rw [Finset.sum_eq_zero_iff_of_nonneg (fun i _ => laylaRaw_nonneg c sw ci co sens mask hn hb hi ho i)] at hz
    have := hz k (Finset.mem_range.2 hk)
    have hl' : ¬ LaylaLost c sw k := by
      intro g
      exact hl ⟨g.1, g.2.1, g.2.2.1, g.2.2.2.1, rfl⟩
    unfold laylaKept
    unfold laylaRaw at this
    split_ifs with g
    · rfl
    · simp only [not_or] at g
      rw [if_neg g.1, if_neg g.2.1, if_neg (not_or.2 ⟨g.2.2, hl'⟩)] at this
      exact this
  split_ifs with g
  · simp only [true_iff]
    rcases g with g | g
    · exact g
    · exact hr g
  · simp only [reduceCtorEq, false_iff]
    exact fun g' => g (Or.inl g')

/-- C77: multiplying all the sensitivities by a positive number changes nothing. -/
theorem C77_weights_scale (c : Cons) (sw : Bool) (ci co t : ℚ) (sens mask : List ℚ) (hs : sens.length = 12)
    (hm : mask.length = 12) (ht : 0 < t) :
    laylaWeights c sw ci co (sens.map (fun x => t * x)) mask = laylaWeights c sw ci co sens mask := by
  have ht' := ht.ne'
  have g : ∀ k, (sens.map (fun x => t * x)).getD k 0 = t * sens.getD k 0 := by
    intro k
    simp only [List.getD_eq_getElem?_getD, List.getElem?_map]
    cases sens[k]? <;> simp
  have e0 : ∀ k, asked (sens.map (fun x => t * x)) mask k = t * asked sens mask k := by
    intro k; unfold asked; rw [g]; ring
  have e1 : ∀ k, laylaKept c (sens.map (fun x => t * x)) mask k = t * laylaKept c sens mask k := by
    intro k; unfold laylaKept; rw [e0]; split_ifs <;> simp
  have e2 : laylaMean c (sens.map (fun x => t * x)) mask = t * laylaMean c sens mask := by
    unfold laylaMean
    simp only [e1]
    rw [← Finset.mul_sum]
    have : (Finset.range 12).filter (fun k => t * laylaKept c sens mask k ≠ 0) =
        (Finset.range 12).filter (fun k => laylaKept c sens mask k ≠ 0) := by
      apply Finset.filter_congr
      intro k _
      simp [ht']
    rw [this]; ring
  have e3 : ∀ k, laylaRaw c sw ci co (sens.map (fun x => t * x)) mask k = t * laylaRaw c sw ci co sens mask k := by
    intro k; unfold laylaRaw; rw [e0, e2]; split_ifs <;> ring
  rw [laylaWeights_eq c sw ci co _ mask (by simpa using hs) hm, laylaWeights_eq c sw ci co sens mask hs hm]
  simp only [e0, e1, e3]
  rw [← Finset.mul_sum, ← Finset.mul_sum]
  simp only [mul_eq_zero, ht', false_or, mul_div_mul_left _ _ ht']
  split_ifs <;> rfl

/-- C77: the weightings of the in-plane (or out-of-plane) lamination parameters alone: they keep their proportions and add up to 1,
unless all of them are at most `1e-8`, when they are left as they are. -/
theorem C77_parts (l : List ℚ) (hn : ∀ x ∈ l, 0 ≤ x) :
    ((∀ x ∈ l, x ≤ 1 / 10 ^ 8) → laylaPart l = some l) ∧
    ((∃ x ∈ l, 1 / 10 ^ 8 < x) → ∃ P S, laylaPart l = some P ∧ 0 < S ∧ P = l.map (fun x => x / S) ∧ P.sum = 1) := by
  have e : l.all (fun (x : ℚ) => |x| ≤ 1 / 10 ^ 8) = true ↔ ∀ x ∈ l, x ≤ 1 / 10 ^ 8 := by
    rw [List.all_eq_true]
    apply forall₂_congr
    intro x hx
    rw [abs_of_nonneg (hn x hx)]
    simp
  unfold laylaPart
  constructor
  · intro h
    rw [if_pos (e.2 h)]
  · rintro ⟨x, hx, hlt⟩
    rw [if_neg (fun h => absurd (e.1 h x hx) (not_le.2 hlt))]
    have hS : 0 < l.sum := by
      have := List.single_le_sum hn x hx
      have h0 : (0 : ℚ) < 1 / 10 ^ 8 := by norm_num
      linarith
    rw [if_neg hS.ne']
    refine ⟨_, l.sum, rfl, hS, rfl, ?_⟩
    have : ∀ (l : List ℚ) (s : ℚ), (l.map (fun x => x / s)).sum = l.sum / s := by
      intro l s
      induction l with
      | nil => simp
      | cons a t ih => simp only [List.map_cons, List.sum_cons, ih]; ring
    rw [this, div_self hS.ne']

/-- C77: the targets of the lamination parameters that must vanish are set to zero, the others are left as they are. -/
theorem C77_targets (c : Cons) (t : List ℚ) (ht : t.length = 12) :
    ∃ T, laylaFilterTarget c t = .ok T ∧ T.length = 12 ∧ ∀ k < 12,
      T.getD k 0 = if (c.sym = true ∧ 4 ≤ k ∧ k < 8) ∨ (c.ipo = true ∧ (k = 2 ∨ k = 3)) ∨ (c.oopo = true ∧ (k = 10 ∨ k = 11))
        then 0 else t.getD k 0 :=
  C65_targets { c with bal := c.ipo } t ht

theorem needNonneg_iff (x : PyObj) (q : ℚ) : needNonneg x = .ok q ↔ IsNumber x q ∧ 0 ≤ q := by
  unfold needNonneg
  rw [bind_iff]
  constructor
  · rintro ⟨a, ha, h⟩
    split_ifs at h with g
    obtain rfl := Except.ok.inj h
    exact ⟨(needNumber_iff _ _).1 ha, not_lt.1 g⟩
  · rintro ⟨h1, h2⟩
    exact ⟨q, (needNumber_iff _ _).2 h1, by rw [if_neg (not_lt.2 h2)]⟩

theorem test_iff {P : Prop} [Decidable P] (e : Err) (u : Unit) :
    (if P then (Except.error e : Py Unit) else .ok ()) = .ok u ↔ ¬ P := by
  by_cases h : P <;> simp [h]

theorem test_iff' {P : Prop} [Decidable P] (e : Err) (u : Unit) :
    (if P then (Except.ok () : Py Unit) else .error e) = .ok u ↔ P := by
  by_cases h : P <;> simp [h]

theorem laylaPen10_iff (c : Cons) (a : LaylaParArgs) (r : Bool × Bool × ℚ) : laylaPen10 c a = .ok r ↔
    (c.rule10 = true → a.pen10Pc = .bool r.1 ∧ a.pen10Lampam = .bool r.2.1 ∧ IsNumber a.coeff10 r.2.2 ∧ 0 ≤ r.2.2) ∧
    (c.rule10 = false → r = (false, false, 0)) := by
  unfold laylaPen10
  rcases Bool.eq_false_or_eq_true c.rule10 with h | h
  · simp only [h, if_true, bind_iff, needBool_iff, needNonneg_iff, forall_const, Bool.true_eq_false, false_implies, and_true]
    constructor
    · rintro ⟨x, hx, y, hy, z, hz, e⟩
      obtain rfl := Except.ok.inj e
      exact ⟨hx, hy, hz⟩
    · rintro ⟨hx, hy, hz⟩
      exact ⟨_, hx, _, hy, _, hz, rfl⟩
  · simp [h, eq_comm]

theorem laylaPenBal_iff (c : Cons) (a : LaylaParArgs) (r : Bool) : laylaPenBal c a = .ok r ↔
    (c.bal = true → a.penBal = .bool r) ∧ (c.bal = false → r = false) := by
  unfold laylaPenBal
  rcases Bool.eq_false_or_eq_true c.bal with h | h
  · simp [h, needBool_iff]
  · simp [h, eq_comm]

theorem laylaPenIpo_iff (c : Cons) (a : LaylaParArgs) (r : Bool × ℚ) : laylaPenIpo c a = .ok r ↔
    (c.ipo = true → a.penIpo = .bool r.1 ∧ IsNumber a.coeffBalIpo r.2 ∧ 0 ≤ r.2) ∧
    (c.ipo = false → r = (false, 0)) := by
  unfold laylaPenIpo
  rcases Bool.eq_false_or_eq_true c.ipo with h | h
  · simp only [h, if_true, bind_iff, needBool_iff, needNonneg_iff, forall_const, Bool.true_eq_false, false_implies, and_true]
    constructor
    · rintro ⟨x, hx, z, hz, e⟩
      obtain rfl := Except.ok.inj e
      exact ⟨hx, hz⟩
    · rintro ⟨hx, hz⟩
      exact ⟨_, hx, _, hz, rfl⟩
  · simp [h, eq_comm]

theorem laylaCoeffOopo_iff (c : Cons) (a : LaylaParArgs) (r : ℚ) : laylaCoeffOopo c a = .ok r ↔
    (c.oopo = true → IsNumber a.coeffOopo r ∧ 0 ≤ r) ∧ (c.oopo = false → r = 0) := by
  unfold laylaCoeffOopo
  rcases Bool.eq_false_or_eq_true c.oopo with h | h
  · simp [h, needNonneg_iff]
  · simp [h, eq_comm]

/-- C77: the parameters are accepted exactly when the settings are numbers, integers or Booleans within their limits: at least one
outer loop; penalties and coefficients not negative when the guideline is on (and off, with a coefficient of zero, otherwise); not two
penalties for the same guideline; `p_A` from 0 to 100; a minimum group size of at least 1 and at least the contiguity limit; a maximum
group size for each outer loop, not below the minimum; node limits of at least 1; sensitivities not negative; components to optimise
given by 0 or 1; weightings that can be computed.  The attributes are the given values, and the weightings those computed. -/
theorem C77_accepted (c : Cons) (a : LaylaParArgs) (p : LaylaParams) : mkLaylaParams c a = .ok p ↔
    (IsInt a.nOuter p.nOuter ∧ 1 ≤ p.nOuter) ∧
    ((c.rule10 = true → a.pen10Pc = .bool p.pen10Pc ∧ a.pen10Lampam = .bool p.pen10Lampam ∧ IsNumber a.coeff10 p.coeff10 ∧
        0 ≤ p.coeff10) ∧
      (c.rule10 = false → p.pen10Pc = false ∧ p.pen10Lampam = false ∧ p.coeff10 = 0)) ∧
    ¬ (a.pen10Pc.truth = true ∧ a.pen10Lampam.truth = true) ∧
    ((c.bal = true → a.penBal = .bool p.penBal) ∧ (c.bal = false → p.penBal = false)) ∧
    ((c.ipo = true → a.penIpo = .bool p.penIpo ∧ IsNumber a.coeffBalIpo p.coeffBalIpo ∧ 0 ≤ p.coeffBalIpo) ∧
      (c.ipo = false → p.penIpo = false ∧ p.coeffBalIpo = 0)) ∧
    ¬ (a.penIpo.truth = true ∧ a.penBal.truth = true) ∧
    ((c.oopo = true → IsNumber a.coeffOopo p.coeffOopo ∧ 0 ≤ p.coeffOopo) ∧ (c.oopo = false → p.coeffOopo = 0)) ∧
    a.membrane = .bool p.membrane ∧ a.flexural = .bool p.flexural ∧ (IsNumber a.pA p.pA ∧ 0 ≤ p.pA ∧ p.pA ≤ 100) ∧
    IsInt a.nD1 p.nD1 ∧ IsInt a.nD2 p.nD2 ∧ IsInt a.nD3 p.nD3 ∧
    (IsInt a.groupSizeMin p.groupSizeMin ∧ 1 ≤ p.groupSizeMin ∧ (c.nContig : Int) ≤ p.groupSizeMin) ∧
    (p.groupSizeMax = (a.groupSizeMax.values p.nOuter).map truncQ ∧
      (∀ x ∈ a.groupSizeMax.values p.nOuter, (p.groupSizeMin : ℚ) ≤ x) ∧
      p.nOuter ≤ (a.groupSizeMax.values p.nOuter).length) ∧
    (IsInt a.globalNodeLimit p.globalNodeLimit ∧ 1 ≤ p.globalNodeLimit) ∧
    (IsInt a.globalNodeLimitP p.globalNodeLimitP ∧ 1 ≤ p.globalNodeLimitP) ∧
    (IsInt a.localNodeLimit p.localNodeLimit ∧ 1 ≤ p.localNodeLimit) ∧
    (IsInt a.localNodeLimitFinal p.localNodeLimitFinal ∧ 1 ≤ p.localNodeLimitFinal) ∧
    (∀ x ∈ a.sensitivities, 0 ≤ x) ∧ (∀ x ∈ a.optimised, x = 0 ∨ x = 1) ∧
    laylaWeights c p.penIpo p.coeffBalIpo p.coeffOopo a.sensitivities a.optimised = .ok (p.weights, p.weightsIni) ∧
    p.weightsA = p.weights.bind (fun l => laylaPart (l.take 4)) ∧
    p.weightsD = p.weights.bind (fun l => laylaPart ((l.take 12).drop 8)) := by
  have hsens : (a.sensitivities.any (fun (x : ℚ) => x < 0) = true) ↔ ¬ ∀ x ∈ a.sensitivities, 0 ≤ x := by
    simp
  have hopt : (a.optimised.any (fun (x : ℚ) => x ≠ 0 && x ≠ 1) = true) ↔ ¬ ∀ x ∈ a.optimised, x = 0 ∨ x = 1 := by
    simp
  unfold mkLaylaParams
  simp only [bind_iff, needPositive_iff, needInt_iff, needNumber_iff, needBool_iff, test_iff, test_iff', laylaPen10_iff, laylaPenBal_iff,
    laylaPenIpo_iff, laylaCoeffOopo_iff, hsens, hopt, not_not, Bool.and_eq_true]
  constructor
  · rintro ⟨nO, h1, ⟨p1, p2, p3⟩, h2, _, h3, pb, h4, ⟨q1, q2⟩, h5, _, h6, oo, h7, me, h8, fl, h9, pA, h10, _, h11, d1, h12, d2, h13, d3, h14,
      gm, h15, _, h16, _, h17, _, h18, g, h19, gp, h20, l, h21, lf, h22, _, h23, _, h24, ⟨w1, w2⟩, h25, e⟩
    have e := Except.ok.inj e
    subst e
    refine ⟨h1, ⟨h2.1, fun h => ?_⟩, h3, h4, ⟨h5.1, fun h => ?_⟩, h6, h7, h8, h9, ⟨h10, h11⟩, h12, h13, h14, ⟨h15.1, h15.2, not_lt.1 h16⟩,
      ⟨rfl, ?_, not_lt.1 h18⟩, h19, h20, h21, h22, h23, h24, h25, rfl, rfl⟩
    · simpa [Prod.ext_iff] using h2.2 h
    · simpa [Prod.ext_iff] using h5.2 h
    · intro x hx
      by_contra hlt
      exact h17 (List.any_eq_true.2 ⟨x, hx, by simpa using hlt⟩)
  · rintro ⟨h1, h2, h3, h4, h5, h6, h7, h8, h9, ⟨h10, h11⟩, h12, h13, h14, ⟨h15, h15', h16⟩, ⟨hg, h17, h18⟩, h19, h20, h21, h22, h23, h24,
      h25, hA, hD⟩
    refine ⟨_, h1, (p.pen10Pc, p.pen10Lampam, p.coeff10), ⟨h2.1, fun h => by simpa [Prod.ext_iff] using h2.2 h⟩, (), h3, _, h4,
      (p.penIpo, p.coeffBalIpo), ⟨h5.1, fun h => by simpa [Prod.ext_iff] using h5.2 h⟩, (), h6, _, h7, _, h8, _, h9, _, h10, (), h11,
      _, h12, _, h13, _, h14, _, ⟨h15, h15'⟩, (), not_lt.2 h16, (), ?_, (), not_lt.2 h18, _, h19, _, h20, _, h21, _, h22, (), h23, (), h24,
      _, h25, ?_⟩
    · intro hh
      obtain ⟨x, hx, hlt⟩ := List.any_eq_true.1 hh
      exact absurd (h17 x hx) (by simpa using hlt)
    · rw [← hA, ← hD, ← hg]
      rfl

theorem truncQ_ge (m : Int) (x : ℚ) (h : (m : ℚ) ≤ x) (hm : 1 ≤ m) : m ≤ truncQ x := by
  unfold truncQ
  have h0 : (0 : ℚ) ≤ x := le_trans (by exact_mod_cast (by omega : (0 : Int) ≤ m)) h
  rw [if_pos h0]
  exact Rat.le_floor_iff.2 h

/-- C77: the group sizes stored: one maximum for each outer loop at least, none below the minimum, which is at least 1 and at least
the contiguity limit.  A single maximum is used for all the outer loops; given maxima are truncated to integers. -/
theorem C77_group_sizes (c : Cons) (a : LaylaParArgs) (p : LaylaParams) (h : mkLaylaParams c a = .ok p) :
    1 ≤ p.groupSizeMin ∧ (c.nContig : Int) ≤ p.groupSizeMin ∧ 1 ≤ p.nOuter ∧ p.nOuter ≤ p.groupSizeMax.length ∧
    (∀ x ∈ p.groupSizeMax, p.groupSizeMin ≤ x) ∧
    (∀ z : Int, a.groupSizeMax = .int z → (p.groupSizeMax.length : Int) = p.nOuter ∧ ∀ x ∈ p.groupSizeMax, x = z) ∧
    ∀ l : List ℚ, a.groupSizeMax = .array l → p.groupSizeMax = l.map truncQ := by
  obtain ⟨h1, _, _, _, _, _, _, _, _, _, _, _, _, h15, ⟨hg, h17, h18⟩, _⟩ := (C77_accepted c a p).1 h
  refine ⟨h15.2.1, h15.2.2, h1.2, by rw [hg]; simpa using h18, ?_, fun z hz => ?_, fun l hl => ?_⟩
  · rw [hg]
    intro x hx
    obtain ⟨y, hy, rfl⟩ := List.mem_map.1 hx
    exact truncQ_ge _ _ (h17 y hy) h15.2.1
  · have hno := h1.2
    rw [hg, hz]
    unfold GroupMax.values
    simp only [List.map_replicate, List.length_replicate]
    refine ⟨by omega, fun x hx => ?_⟩
    rw [List.eq_of_mem_replicate hx]
    simp [truncQ]
  · rw [hg, hl]
    rfl

/-- C77, violation: with the orientations 0, +-45 and 90, when the penalty for in-plane orthotropy is on and out-of-plane orthotropy
is not required, the weighting asked for the lamination parameter 10 is lost: it is set to zero for all the parameters accepted. -/
theorem C77_lost_weight_violation (c : Cons) (a : LaylaParArgs) (p : LaylaParams) (W : List ℚ) (h : mkLaylaParams c a = .ok p)
    (hs : a.sensitivities.length = 12) (hm : a.optimised.length = 12) (hstd : StdAngles c) (hi : c.ipo = true)
    (ho : c.oopo = false) (hp : a.penIpo = .bool true) (hW : p.weights = some W) : W.getD 10 0 = 0 := by
  obtain ⟨_, _, _, _, h5, _, h7, _, _, _, _, _, _, _, _, _, _, _, _, h23, h24, h25, _⟩ := (C77_accepted c a p).1 h
  rw [hW] at h25
  have hsw : p.penIpo = true := by
    have := (h5.1 hi).1
    rw [hp] at this
    exact (PyObj.bool.inj this).symm
  have hco := h7.2 ho
  obtain ⟨_, _, _, S, hS, _, hv⟩ := C77_weights_final c _ _ _ _ _ hs hm h23 h24 (h5.1 hi).2.2 (le_of_eq hco.symm) W _ h25
  have := (hv 10 (by norm_num)).2.2.2.2 ⟨hstd, hi, hsw, ho, rfl⟩
  rw [this, hco]
  simp

/-- Runs both constructors. -/
def laylaSetup (ca : LaylaConsArgs) (pa : LaylaParArgs) : Py (Cons × LaylaParams) := do
  let c ← mkLaylaConstraints ca
  let p ← mkLaylaParams c pa
  return (c, p)

theorem laylaSetup_ok {ca : LaylaConsArgs} {pa : LaylaParArgs} {r : Cons × LaylaParams} (h : laylaSetup ca pa = .ok r) :
    mkLaylaConstraints ca = .ok r.1 ∧ mkLaylaParams r.1 pa = .ok r.2 := by
  unfold laylaSetup at h
  simp only [bind_iff] at h
  obtain ⟨c, hc, p, hp, e⟩ := h
  obtain rfl := Except.ok.inj e
  exact ⟨hc, hp⟩

set_option synthInstance.maxHeartbeats 200000 in
set_option synthInstance.maxSize 1000 in
/-- A complete case: symmetric, in-plane and out-of-plane orthotropic laminates with +-30 degree plies. -/
theorem C77_example : ∃ (ca : LaylaConsArgs) (pa : LaylaParArgs) (c : Cons) (p : LaylaParams),
    mkLaylaConstraints ca = .ok c ∧ mkLaylaParams c pa = .ok p ∧ p.nOuter = 2 ∧ p.groupSizeMax = [8, 10] ∧
    p.weights = some [1 / 10, 1 / 5, 1 / 10, 1 / 10, 0, 0, 0, 0, 0, 1 / 10, 1 / 5, 1 / 5] ∧
    p.weightsA = some [1 / 5, 2 / 5, 1 / 5, 1 / 5] ∧ p.weightsD = some [0, 1 / 5, 2 / 5, 2 / 5] ∧
    p.weightsIni = [1 / 10, 1 / 5, 1 / 10, 1 / 10, 0, 0, 0, 0, 0, 1 / 10, 1 / 5, 1 / 5] := by
  obtain ⟨⟨c, p⟩, hcp, ht⟩ := ok_of_test (laylaSetup { sym := true, ipo := true, oopo := true, contig := true, nContig := 4, setOfAngles := [0, 30, 90, -30] } { nOuter := .int 2, groupSizeMax := .array [8, 21 / 2], penIpo := .bool true, coeffBalIpo := .float (3 / 4), coeffOopo := .float (3 / 2), sensitivities := [1, 2, 1, 1, 0, 0, 0, 0, 3, 1, 2, 2], optimised := [1, 1, 1, 1, 1, 1, 1, 1, 0, 1, 1, 1] })
    (fun r => decide (r.2.nOuter = 2 ∧ r.2.groupSizeMax = [8, 10] ∧
    r.2.weights = some [1 / 10, 1 / 5, 1 / 10, 1 / 10, 0, 0, 0, 0, 0, 1 / 10, 1 / 5, 1 / 5] ∧
    r.2.weightsA = some [1 / 5, 2 / 5, 1 / 5, 1 / 5] ∧ r.2.weightsD = some [0, 1 / 5, 2 / 5, 2 / 5] ∧
    r.2.weightsIni = [1 / 10, 1 / 5, 1 / 10, 1 / 10, 0, 0, 0, 0, 0, 1 / 10, 1 / 5, 1 / 5])) (by decide +kernel)
  simp only [decide_eq_true_eq] at ht
  exact ⟨_, _, c, p, (laylaSetup_ok hcp).1, (laylaSetup_ok hcp).2, ht⟩

set_option synthInstance.maxHeartbeats 200000 in
/-- The case of `C77_lost_weight_violation`: balance with its penalty and the default weightings, all equal; the lamination
parameter 10 has no weighting left while the other out-of-plane lamination parameters keep theirs. -/
theorem C77_lost_weight_example : ∃ (ca : LaylaConsArgs) (pa : LaylaParArgs) (c : Cons) (p : LaylaParams),
    mkLaylaConstraints ca = .ok c ∧ mkLaylaParams c pa = .ok p ∧ c.ipo = true ∧ c.oopo = false ∧ pa.penIpo = .bool true ∧
    pa.sensitivities = List.replicate 12 1 ∧ pa.optimised = List.replicate 12 1 ∧
    p.weights = some [1 / 5, 1 / 5, 1 / 5, 0, 0, 0, 0, 0, 1 / 5, 1 / 5, 0, 0] := by
  obtain ⟨⟨c, p⟩, hcp, ht⟩ := ok_of_test (laylaSetup { sym := true, bal := true } { penIpo := .bool true })
    (fun r => decide (r.1.ipo = true ∧ r.1.oopo = false ∧
      r.2.weights = some [1 / 5, 1 / 5, 1 / 5, 0, 0, 0, 0, 0, 1 / 5, 1 / 5, 0, 0])) (by decide +kernel)
  simp only [decide_eq_true_eq] at ht
  exact ⟨_, _, c, p, (laylaSetup_ok hcp).1, (laylaSetup_ok hcp).2, ht.1, ht.2.1, rfl, rfl, rfl, ht.2.2⟩

/-- C77, violation: parameters are accepted with weightings that are not numbers: when only the coupling lamination parameters are to
be optimised and the laminates are symmetric. -/
theorem C77_nan_violation : ∃ (ca : LaylaConsArgs) (pa : LaylaParArgs) (c : Cons) (p : LaylaParams),
    mkLaylaConstraints ca = .ok c ∧ mkLaylaParams c pa = .ok p ∧ pa.sensitivities.length = 12 ∧ pa.optimised.length = 12 ∧
    p.weights = none ∧ p.weightsA = none ∧ p.weightsD = none := by
  obtain ⟨⟨c, p⟩, hcp, ht⟩ := ok_of_test (laylaSetup { sym := true } { optimised := [0, 0, 0, 0, 1, 1, 1, 1, 0, 0, 0, 0] })
    (fun r => decide (r.2.weights = none ∧ r.2.weightsA = none ∧ r.2.weightsD = none)) (by decide +kernel)
  simp only [decide_eq_true_eq] at ht
  exact ⟨_, _, c, p, (laylaSetup_ok hcp).1, (laylaSetup_ok hcp).2, rfl, rfl, ht⟩

/-- C77, violation: the number of sensitivities is not tested: one is accepted, and other numbers than 12 fail with an error that is
not one of definition of the parameters. -/
theorem C77_size_violation (c : Cons) (sw : Bool) (ci co : ℚ) :
    (∃ (ca : LaylaConsArgs) (pa : LaylaParArgs) (r : Cons × LaylaParams), laylaSetup ca pa = .ok r ∧
      pa.sensitivities.length = 1 ∧ pa.optimised.length = 1) ∧
    ∀ sens mask : List ℚ, sens.length = mask.length → (∀ x ∈ sens, 0 < x) → (∀ x ∈ mask, x = 1) → sens.length ≠ 0 →
      sens.length ≠ 1 → sens.length ≠ 12 → laylaWeights c sw ci co sens mask = .error .valueError := by
  constructor
  · obtain ⟨r, hr, _⟩ := ok_of_test (laylaSetup { sym := true } { sensitivities := [1], optimised := [1] })
      (fun _ => true) (by decide +kernel)
    exact ⟨_, _, r, hr, rfl, rfl⟩
  · intro sens mask hl hs hm h0 h1 h12
    have hmul : npMul sens mask = .ok sens := by
      unfold npMul
      rw [if_pos hl]
      congr 1
      clear h0 h1 h12 hs
      induction sens generalizing mask with
      | nil => rfl
      | cons x t ih =>
        cases mask with
        | nil => simp at hl
        | cons y u =>
          rw [List.zipWith_cons_cons, ih u (by simpa using hl) (fun z hz => hm z (by simp [hz])), hm y (by simp), mul_one]
    have hsum : sens.sum ≠ 0 := by
      cases sens with
      | nil => simp at h0
      | cons x t =>
        have := List.sum_nonneg (fun z hz => (hs z (by simp [hz])).le : ∀ z ∈ t, (0 : ℚ) ≤ z)
        have := hs x (by simp)
        rw [List.sum_cons]
        linarith
    unfold laylaWeights
    rw [hmul]
    simp only [bind, Except.bind, if_neg hsum]
    have hdrop : laylaDrop c (sens.map (fun (x : ℚ) => x / sens.sum)) = .error .valueError := by
      have key : ∀ (op : List ℚ), op.length = 12 → npMul (sens.map (fun (x : ℚ) => x / sens.sum)) op = .error .valueError := by
        intro op hop
        unfold npMul
        rw [if_neg (by simp [hop, h12])]
        split
        · rename_i x e
          have := congrArg List.length e
          simp at this
          omega
        · simp at hop
        · rfl
      unfold laylaDrop
      rcases Bool.eq_false_or_eq_true c.sym with g1 | g1 <;> rcases Bool.eq_false_or_eq_true c.standardAngles with g2 | g2 <;>
        simp [g1, g2, npSets, npSet, npSetSlice, List.replicate, bind, Except.bind, key]
    rw [hdrop]

/-- C77, violation: the two penalties of a guideline that is not required are not ignored: asking for both is refused. -/
theorem C77_off_switch_violation (c : Cons) (a : LaylaParArgs) (h1 : a.pen10Pc = .bool true) (h2 : a.pen10Lampam = .bool true) :
    ∃ e, mkLaylaParams c a = .error e := by
  cases h : mkLaylaParams c a with
  | error e => exact ⟨e, rfl⟩
  | ok p =>
    obtain ⟨_, _, h3, _⟩ := (C77_accepted c a p).1 h
    rw [h1, h2] at h3
    exact absurd ⟨rfl, rfl⟩ h3

end Bella
