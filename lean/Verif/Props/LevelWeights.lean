import Verif.Model.LevelWeights
import Verif.Props.Moments
import Verif.Props.Constraints
import Mathlib.Algebra.Order.BigOperators.Group.Finset
/-
C66: the lamination-parameter weightings at the levels of the search.
-/
namespace Bella

namespace Spec66

/-- Share of the area, of the first and of the second moment of area of a laminate of `n` plies in the `k` plies nearest to each face:
with `z = 1 - 2k/n` the distance of the rest to the mid-plane, `1 - z`, `1 - z²` and `1 - z³`. -/
def share (n k : Nat) (p : Nat) : ℚ := 1 - (1 - 2 * (min (2 * k) n : Nat) / (2 * n) : ℚ) ^ p

end Spec66

/-- The number of plies of a panel that are searched. -/
def searched (sym : Bool) (n : Nat) : Nat := if sym then halfUp n else n

theorem momAreasPlus_length (sym : Bool) (n : Nat) :
    (momAreasPlus sym n (calcPlyOrder sym n)).length = searched sym n := by
  unfold momAreasPlus searched
  cases sym with
  | true => simp
  | false => simp [(calcPlyOrder_asym_perm n).length_eq]

/-- The cumulated moments of the `k` first plies searched. -/
def cumMom (sym : Bool) (n k : Nat) : Mom :=
  ⟨(((momAreasPlus sym n (calcPlyOrder sym n)).take k).map (·.a)).sum,
   (((momAreasPlus sym n (calcPlyOrder sym n)).take k).map (·.b)).sum,
   (((momAreasPlus sym n (calcPlyOrder sym n)).take k).map (·.d)).sum⟩

theorem levelTable_spec (sym : Bool) (n : Nat) (w : List ℚ) (row : Stack)
    (hrow : row.countP (fun x => x != -1) = searched sym n) :
    levelTable sym n w row = .ok ((List.range row.length).map (fun j =>
      levelWeights w (cumMom sym n (Spec.plyCount row (j + 1))))) := by
  have hl := momAreasPlus_length sym n
  obtain ⟨a, a1, a2, a3, _⟩ := C20_cumulated ((momAreasPlus sym n (calcPlyOrder sym n)).map (·.a)) row (by
    rw [List.length_map, hl, hrow])
  obtain ⟨b, b1, b2, b3, _⟩ := C20_cumulated ((momAreasPlus sym n (calcPlyOrder sym n)).map (·.b)) row (by
    rw [List.length_map, hl, hrow])
  obtain ⟨d, d1, d2, d3, _⟩ := C20_cumulated ((momAreasPlus sym n (calcPlyOrder sym n)).map (·.d)) row (by
    rw [List.length_map, hl, hrow])
  unfold levelTable
  simp only [a1, b1, d1, bind, Except.bind, pure, Except.pure]
  congr 1
  apply List.map_congr_left
  intro j hj
  have hj := List.mem_range.1 hj
  unfold cumMom
  simp only [List.getD_eq_getElem?_getD, a3 j hj, b3 j hj, d3 j hj, Option.getD_some, List.map_take]

theorem cumMom_nonneg (sym : Bool) (n k : Nat) (hn : 0 < n) :
    0 ≤ (cumMom sym n k).a ∧ 0 ≤ (cumMom sym n k).b ∧ 0 ≤ (cumMom sym n k).d := by
  have h := C20_positive sym n hn
  unfold cumMom
  refine ⟨List.sum_nonneg ?_, List.sum_nonneg ?_, List.sum_nonneg ?_⟩
  all_goals
    intro x hx
    obtain ⟨m, hm, rfl⟩ := List.mem_map.1 hx
    have := h m (List.mem_of_mem_take hm)
  · exact this.1.le
  · exact this.2.1.le
  · exact this.2.2.le

theorem levelWeights_length (w : List ℚ) (m : Mom) : (levelWeights w m).length = w.length := by
  unfold levelWeights
  dsimp only
  split <;> simp

/-- The factor of the weighting number `i`. -/
def Mom.factor (m : Mom) (i : Nat) : ℚ := if i < 4 then m.a else if i < 8 then m.b else m.d

theorem mapIdx_getD (w : List ℚ) (f : Nat → ℚ) (i : Nat) :
    (w.mapIdx (fun (i : Nat) (y : ℚ) => y * f i)).getD i 0 = w.getD i 0 * f i := by
  simp only [List.getD_eq_getElem?_getD, List.getElem?_mapIdx]
  cases w[i]? <;> simp

/-- C66: at every level of the search and for every panel, the weightings are twelve non-negative numbers; they are
proportional to those of the panel times the share of the area (in-plane), of the first moment (coupling) or of the second moment of area
(out-of-plane) of the plies searched so far; their sum is 1, unless all of these products are at most 1e-8 (in particular before the
first ply of the panel), in which case they are these products. -/
theorem C66_levels (sym : Bool) (n : Nat) (hn : 0 < n) (w : List ℚ) (hw : w.length = 12) (hnn : ∀ x ∈ w, 0 ≤ x) (row : Stack)
    (hrow : row.countP (fun x => x != -1) = searched sym n) :
    ∃ t, levelTable sym n w row = .ok t ∧ t.length = row.length ∧ ∀ (j : Nat) (v : List ℚ), t[j]? = some v →
      v.length = 12 ∧ (∀ x ∈ v, 0 ≤ x) ∧
      ∃ S : ℚ, 0 < S ∧
        (∀ i, i < 12 → v.getD i 0 * S = w.getD i 0 * (cumMom sym n (Spec.plyCount row (j + 1))).factor i) ∧
        ((v.sum = 1 ∧ ∃ i < 12, 1 / 10 ^ 8 < w.getD i 0 * (cumMom sym n (Spec.plyCount row (j + 1))).factor i) ∨
         (S = 1 ∧ ∀ i < 12, w.getD i 0 * (cumMom sym n (Spec.plyCount row (j + 1))).factor i ≤ 1 / 10 ^ 8)) := by
  refine ⟨_, levelTable_spec sym n w row hrow, by simp, ?_⟩
  intro j v hv
  rw [List.getElem?_map] at hv
  obtain ⟨j', hj', rfl⟩ := Option.map_eq_some_iff.1 hv
  have hjj : j' = j := by
    obtain ⟨_, e⟩ := List.getElem?_eq_some_iff.1 hj'
    simpa using e.symm
  subst hjj
  set m := cumMom sym n (Spec.plyCount row (j' + 1)) with hm
  have hmn := cumMom_nonneg sym n (Spec.plyCount row (j' + 1)) hn
  rw [← hm] at hmn
  have hf : ∀ i, 0 ≤ m.factor i := by
    intro i
    unfold Mom.factor
    split
    · exact hmn.1
    · split
      · exact hmn.2.1
      · exact hmn.2.2
  have hwd : ∀ i, 0 ≤ w.getD i 0 := by
    intro i
    rw [List.getD_eq_getElem?_getD]
    cases h : w[i]? with
    | none => simp
    | some x => simpa using hnn x (List.mem_of_getElem? h)
  set x := w.mapIdx (fun (i : Nat) (y : ℚ) => y * m.factor i) with hx
  have hxl : x.length = 12 := by rw [hx]; simpa using hw
  have hxd : ∀ i, x.getD i 0 = w.getD i 0 * m.factor i := fun i => mapIdx_getD w m.factor i
  have hxn : ∀ y ∈ x, 0 ≤ y := by
    intro y hy
    obtain ⟨i, hi, rfl⟩ := List.getElem_of_mem hy
    have := hxd i
    rw [List.getD_eq_getElem?_getD, List.getElem?_eq_getElem hi, Option.getD_some] at this
    rw [this]
    exact mul_nonneg (hwd i) (hf i)
  have hv' : levelWeights w m = if x.all (fun (y : ℚ) => |y| ≤ 1 / 10 ^ 8) then x else x.map (fun (y : ℚ) => y / x.sum) := rfl
  refine ⟨by rw [levelWeights_length, hw], ?_⟩
  rw [hv']
  have small : x.all (fun (y : ℚ) => |y| ≤ 1 / 10 ^ 8) = true ↔ ∀ i < 12, w.getD i 0 * m.factor i ≤ 1 / 10 ^ 8 := by
    rw [List.all_eq_true]
    constructor
    · intro h i hi
      have := h (x.getD i 0) (by
        rw [List.getD_eq_getElem?_getD, List.getElem?_eq_getElem (by omega)]
        exact List.getElem_mem _)
      rw [hxd i] at this
      exact le_trans (le_abs_self _) (by simpa using this)
    · intro h y hy
      have hy0 := hxn y hy
      obtain ⟨i, hi, rfl⟩ := List.getElem_of_mem hy
      have := h i (by omega)
      rw [← hxd i, List.getD_eq_getElem?_getD, List.getElem?_eq_getElem hi, Option.getD_some] at this
      rw [abs_of_nonneg hy0]
      simpa using this
  by_cases hs : x.all (fun (y : ℚ) => |y| ≤ 1 / 10 ^ 8) = true
  · rw [if_pos hs]
    exact ⟨hxn, 1, one_pos, fun i _ => by rw [mul_one, hxd], Or.inr ⟨rfl, small.1 hs⟩⟩
  · rw [if_neg hs]
    have hbig : ∃ i < 12, 1 / 10 ^ 8 < w.getD i 0 * m.factor i := by
      by_contra hc
      push Not at hc
      exact hs (small.2 hc)
    have hS : 0 < x.sum := by
      obtain ⟨i, hi, hlt⟩ := hbig
      have hmem : x.getD i 0 ∈ x := by
        rw [List.getD_eq_getElem?_getD, List.getElem?_eq_getElem (by omega)]
        exact List.getElem_mem _
      have h1 := List.single_le_sum hxn _ hmem
      rw [hxd i] at h1
      have : (0 : ℚ) < 1 / 10 ^ 8 := by norm_num
      linarith
    refine ⟨?_, x.sum, hS, ?_, Or.inl ⟨?_, hbig⟩⟩
    · intro y hy
      obtain ⟨z, hz, rfl⟩ := List.mem_map.1 hy
      exact div_nonneg (hxn z hz) hS.le
    · intro i hi
      rw [← hxd i]
      simp only [List.getD_eq_getElem?_getD, List.getElem?_map, List.getElem?_eq_getElem (show i < x.length by omega),
        Option.map_some, Option.getD_some]
      rw [div_mul_cancel₀ _ hS.ne']
    · have : ∀ l : List ℚ, (l.map (fun (y : ℚ) => y / x.sum)).sum = l.sum / x.sum := by
        intro l
        induction l with
        | nil => simp
        | cons a t ih => rw [List.map_cons, List.sum_cons, List.sum_cons, ih, add_div]
      rw [this, div_self hS.ne']

/-- C66: for symmetric laminates, the share of the area and of the moments of area of the `k` plies of each half searched so far. -/
theorem C66_shares (n k : Nat) (hn : 0 < n) (hk : k ≤ halfUp n) :
    (cumMom true n k).a = Spec66.share n k 1 ∧ (cumMom true n k).b = Spec66.share n k 2 ∧
      (cumMom true n k).d = Spec66.share n k 3 := by
  have hq : (n : ℚ) ≠ 0 := by exact_mod_cast hn.ne'
  have htake : (momAreasPlus true n (calcPlyOrder true n)).take k = (List.range k).map (fun i =>
      (⟨posTopSym n i - posBot n i, |posTopSym n i ^ 2 - posBot n i ^ 2|, posTopSym n i ^ 3 - posBot n i ^ 3⟩ : Mom)) := by
    unfold momAreasPlus
    rw [if_pos rfl, ← List.map_take, List.take_range, Nat.min_eq_left hk]
  have hz : symHeight n k = -(1 - 2 * (min (2 * k) n : Nat) / (2 * n) : ℚ) := by
    unfold symHeight
    by_cases h : k = halfUp n
    · rw [if_pos h, Nat.min_eq_right (by rw [h]; unfold halfUp; omega)]
      field_simp
      ring
    · rw [if_neg h, Nat.min_eq_left (by unfold halfUp at *; omega)]
      unfold posBot
      push_cast
      field_simp
      ring
  have main : ∀ (F : ℚ → ℚ) (g : Nat → ℚ), (∀ i, i < halfUp n → g i = F (posTopSym n i) - F (posBot n i)) →
      ((List.range k).map g).sum = F (symHeight n k) - F (-1) := by
    intro F g hg
    have : (List.range k).map g = (List.range k).map (fun i => F (symHeight n (i + 1)) - F (symHeight n i)) := by
      apply List.map_congr_left
      intro i hi
      have hi : i < halfUp n := lt_of_lt_of_le (List.mem_range.1 hi) hk
      obtain ⟨h1, h2⟩ := posTopSym_eq n i hn hi
      rw [hg i hi, h1, ← h2]
    rw [this, sum_telescope (fun i => F (symHeight n i)), symHeight_zero n hn]
  have hle : symHeight n k ≤ 0 := by
    rw [hz]
    have : (2 * (min (2 * k) n : Nat) / (2 * n) : ℚ) ≤ 1 := by
      have hp : (0 : ℚ) < 2 * n := by positivity
      rw [div_le_one hp]
      have : ((min (2 * k) n : Nat) : ℚ) ≤ n := by exact_mod_cast Nat.min_le_right _ _
      linarith
    linarith
  unfold cumMom Spec66.share
  rw [htake]
  simp only [List.map_map]
  refine ⟨?_, ?_, ?_⟩
  · refine (main (fun z => z) _ (fun i _ => rfl)).trans ?_
    rw [hz]; ring
  · refine (main sqSign _ (fun i hi => plus_sym_first n i hn hi)).trans ?_
    unfold sqSign
    rw [abs_of_nonpos hle, hz]
    norm_num
    ring
  · refine (main (fun z => z ^ 3) _ (fun i _ => rfl)).trans ?_
    rw [hz]; ring

/-- C66: once all the plies of the panel have been searched, its weightings are those of the panel. -/
theorem C66_last_level (sym : Bool) (n : Nat) (hn : 0 < n) (w : List ℚ)
    (h1 : w.sum = 1) (row : Stack) (hrow : row.countP (fun x => x != -1) = searched sym n) (t : List (List ℚ))
    (ht : levelTable sym n w row = .ok t) (v : List ℚ) (hv : t.getLast? = some v) : v = w := by
  rw [levelTable_spec sym n w row hrow] at ht
  have ht := Except.ok.inj ht
  subst ht
  rcases Nat.eq_zero_or_pos row.length with h0 | hpos
  · rw [h0] at hv; simp at hv
  rw [List.getLast?_eq_getElem?, List.length_map, List.length_range, List.getElem?_map,
    List.getElem?_range (by omega), Option.map_some] at hv
  have hv := Option.some.inj hv
  rw [show row.length - 1 + 1 = row.length by omega] at hv
  have hc : Spec.plyCount row row.length = searched sym n := by
    unfold Spec.plyCount
    rw [List.take_length]
    exact hrow
  rw [hc] at hv
  have hsum := C20_positive_sums sym n hn
  have hm : cumMom sym n (searched sym n) = ⟨1, 1, 1⟩ := by
    unfold cumMom
    rw [← momAreasPlus_length sym n, List.take_length]
    unfold momSum at hsum
    simp only [Prod.mk.injEq] at hsum
    rw [hsum.1, hsum.2.1, hsum.2.2]
  rw [hm] at hv
  unfold levelWeights at hv
  have e : w.mapIdx (fun (i : Nat) (y : ℚ) => y * (if i < 4 then (⟨1, 1, 1⟩ : Mom).a else if i < 8 then (⟨1, 1, 1⟩ : Mom).b
      else (⟨1, 1, 1⟩ : Mom).d)) = w := by
    apply List.ext_getElem
    · simp
    · intro i _ _
      simp
  dsimp only at hv e
  rw [e, h1] at hv
  rw [← hv]
  split
  · rfl
  · simp

theorem list12' {w : List ℚ} (h : w.length = 12) : ∃ a b c d e f g i j k l m : ℚ, w = [a, b, c, d, e, f, g, i, j, k, l, m] := by
  match w, h with
  | [a, b, c, d, e, f, g, i, j, k, l, m], _ => exact ⟨a, b, c, d, e, f, g, i, j, k, l, m, rfl⟩

theorem shares_key (A D a d S z : ℚ) (e1 : A + D = 1) (e2 : a + d = 1) (e3 : a * S = A * (1 - z))
    (e4 : d * S = D * (1 - z ^ 3)) (hA0 : 0 ≤ A) (hD0 : 0 ≤ D) (z0 : 0 ≤ z) (z1 : z ≤ 1) (hS : 0 < S) : a ≤ A ∧ D ≤ d := by
  have e5 : S = A * (1 - z) + D * (1 - z ^ 3) := by
    have : (a + d) * S = A * (1 - z) + D * (1 - z ^ 3) := by rw [add_mul, e3, e4]
    rwa [e2, one_mul] at this
  have hz3 : 1 - z ≤ 1 - z ^ 3 := by
    have : z ^ 3 ≤ z := by
      have h2 : z ^ 2 ≤ 1 := by nlinarith
      nlinarith
    linarith
  have hge : 1 - z ≤ S := by
    rw [e5]
    have e6 : 1 - z = A * (1 - z) + D * (1 - z) := by rw [← add_mul, e1, one_mul]
    have e7 := mul_le_mul_of_nonneg_left hz3 hD0
    linarith
  have haA : a ≤ A := by
    have : a * S ≤ A * S := by rw [e3]; exact mul_le_mul_of_nonneg_left hge hA0
    exact le_of_mul_le_mul_right this hS
  exact ⟨haA, by linarith⟩

/-- C66: during the search of symmetric laminates, whose coupling weightings are zero, the in-plane lamination parameters weigh
together at most as much as in the panel, the out-of-plane ones at least as much. -/
theorem C66_out_of_plane_first (n : Nat) (hn : 0 < n) (w : List ℚ) (hw : w.length = 12) (hnn : ∀ x ∈ w, 0 ≤ x)
    (h1 : w.sum = 1) (hB : ∀ i, 4 ≤ i → i < 8 → w.getD i 0 = 0) (row : Stack)
    (hrow : row.countP (fun x => x != -1) = halfUp n) (t : List (List ℚ))
    (ht : levelTable true n w row = .ok t) (v : List ℚ) (hv : v ∈ t) (hs : v.sum = 1) :
    (v.take 4).sum ≤ (w.take 4).sum ∧ (w.drop 8).sum ≤ (v.drop 8).sum := by
  obtain ⟨t', ht', _, hall⟩ := C66_levels true n hn w hw hnn row hrow
  rw [ht] at ht'
  have ht' := Except.ok.inj ht'
  subst ht'
  obtain ⟨j, hj, hjv⟩ := List.getElem_of_mem hv
  obtain ⟨vl, vn, S, hS, hval, _⟩ := hall j v (by rw [List.getElem?_eq_getElem hj, hjv])
  have hkk : Spec.plyCount row (j + 1) ≤ halfUp n := by
    rw [← hrow]
    unfold Spec.plyCount
    exact (List.take_sublist _ _).countP_le
  obtain ⟨sa, sb, sd⟩ := C66_shares n (Spec.plyCount row (j + 1)) hn hkk
  set k := Spec.plyCount row (j + 1)
  set z : ℚ := 1 - 2 * (min (2 * k) n : Nat) / (2 * n) with hz
  have hz0 : 0 ≤ z ∧ z ≤ 1 := by
    have hp : (0 : ℚ) < 2 * n := by positivity
    have a1 : (2 * (min (2 * k) n : Nat) / (2 * n) : ℚ) ≤ 1 := by
      rw [div_le_one hp]
      have : ((min (2 * k) n : Nat) : ℚ) ≤ n := by exact_mod_cast Nat.min_le_right _ _
      linarith
    have a2 : (0 : ℚ) ≤ 2 * (min (2 * k) n : Nat) / (2 * n) := by positivity
    exact ⟨by rw [hz]; linarith, by rw [hz]; linarith⟩
  have ea : (cumMom true n k).a = 1 - z := by rw [sa]; unfold Spec66.share; rw [← hz, pow_one]
  have ed : (cumMom true n k).d = 1 - z ^ 3 := by rw [sd]; unfold Spec66.share; rw [← hz]
  clear_value k z
  obtain ⟨w0, w1, w2, w3, w4, w5, w6, w7, w8, w9, w10, w11, rfl⟩ := list12' hw
  obtain ⟨v0, v1, v2, v3, v4, v5, v6, v7, v8, v9, v10, v11, rfl⟩ := list12' vl
  have q0 := hval 0 (by norm_num)
  have q1 := hval 1 (by norm_num)
  have q2 := hval 2 (by norm_num)
  have q3 := hval 3 (by norm_num)
  have q4 := hval 4 (by norm_num)
  have q5 := hval 5 (by norm_num)
  have q6 := hval 6 (by norm_num)
  have q7 := hval 7 (by norm_num)
  have q8 := hval 8 (by norm_num)
  have q9 := hval 9 (by norm_num)
  have q10 := hval 10 (by norm_num)
  have q11 := hval 11 (by norm_num)
  have b4 := hB 4 (by norm_num) (by norm_num)
  have b5 := hB 5 (by norm_num) (by norm_num)
  have b6 := hB 6 (by norm_num) (by norm_num)
  have b7 := hB 7 (by norm_num) (by norm_num)
  simp [Mom.factor, ea, ed] at q0 q1 q2 q3 q4 q5 q6 q7 q8 q9 q10 q11 b4 b5 b6 b7
  subst b4 b5 b6 b7
  simp only [zero_mul, mul_eq_zero, hS.ne', or_false] at q4 q5 q6 q7
  subst q4 q5 q6 q7
  simp only [List.take_succ_cons, List.take_zero, List.drop_succ_cons, List.drop_zero, List.sum_cons, List.sum_nil] at *
  have n0 := hnn w0 (by simp)
  have n1 := hnn w1 (by simp)
  have n2 := hnn w2 (by simp)
  have n3 := hnn w3 (by simp)
  have n8 := hnn w8 (by simp)
  have n9 := hnn w9 (by simp)
  have n10 := hnn w10 (by simp)
  have n11 := hnn w11 (by simp)
  have key := shares_key (w0 + w1 + w2 + w3) (w8 + w9 + w10 + w11) (v0 + v1 + v2 + v3) (v8 + v9 + v10 + v11) S z
    (by linarith) (by linarith) (by linarith) (by linarith) (by linarith) (by linarith) hz0.1 hz0.2 hS
  exact ⟨by linarith [key.1], by linarith [key.2]⟩

/-- C66, violation: for asymmetric laminates the last level searched is not the last column of the layout, and the designs
are compared there with weightings that are not those of the panel: here the columns are searched in the order 0, 3, 1, 2, and the
weightings of column 2 give 4/9 instead of 1/2 to the in-plane lamination parameters. -/
theorem C66_asymmetric_violation : calcPlyOrder false 4 = [0, 3, 1, 2] ∧
    ∃ t, levelTable false 4 [1 / 2, 0, 0, 0, 0, 0, 0, 0, 1 / 2, 0, 0, 0] [1, 2, 3, 4] = .ok t ∧
      t[2]? = some [4 / 9, 0, 0, 0, 0, 0, 0, 0, 5 / 9, 0, 0, 0] := by
  refine ⟨by decide +kernel, ?_⟩
  obtain ⟨t, h, h2⟩ := ok_of_test (levelTable false 4 [1 / 2, 0, 0, 0, 0, 0, 0, 0, 1 / 2, 0, 0, 0] [1, 2, 3, 4])
    (fun t => t[2]? == some [4 / 9, 0, 0, 0, 0, 0, 0, 0, 5 / 9, 0, 0, 0]) (by decide +kernel)
  exact ⟨t, h, by simpa using h2⟩

/-- The hypotheses are met: a panel of 7 plies, four of which are searched, in a layout with one dropped ply. -/
example : (∃ t, levelTable true 7 [1 / 2, 0, 0, 0, 0, 0, 0, 0, 1 / 2, 0, 0, 0] [1, 2, -1, 3, 4] = .ok t ∧
    t[0]? = some [49 / 158, 0, 0, 0, 0, 0, 0, 0, 109 / 158, 0, 0, 0]) ∧
    [(1 : Int), 2, -1, 3, 4].countP (fun x => x != -1) = searched true 7 ∧
    ([1 / 2, 0, 0, 0, 0, 0, 0, 0, 1 / 2, 0, 0, 0] : List ℚ).sum = 1 := by
  refine ⟨?_, by decide, by norm_num⟩
  obtain ⟨t, h, h2⟩ := ok_of_test (levelTable true 7 [1 / 2, 0, 0, 0, 0, 0, 0, 0, 1 / 2, 0, 0, 0] [1, 2, -1, 3, 4])
    (fun t => t[0]? == some [49 / 158, 0, 0, 0, 0, 0, 0, 0, 109 / 158, 0, 0, 0]) (by decide +kernel)
  exact ⟨t, h, by simpa using h2⟩

end Bella
