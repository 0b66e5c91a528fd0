import Verif.Proofs.Monad
import Verif.Proofs.Sums
import Verif.Spec.Lampam
import Verif.Spec.Layout
import Verif.Model.PlyOrder
import Verif.Props.Positions
/-
Properties C19 (ply order), C20 (moments of area), C50 (partial lamination parameters).
-/
namespace Bella

/-! ### C19 -/

theorem calcPlyOrder_asym_getElem (n i : Nat) (hi : i < n) :
    (calcPlyOrder false n)[i]? = some (if i % 2 = 0 then i / 2 else n - 1 - i / 2) := by
  unfold calcPlyOrder halfUp
  simp only [Bool.false_eq_true, if_false, List.getElem?_map, List.getElem?_range hi, Option.map_some,
    Option.some.injEq]
  split
  · rw [List.getD_eq_getElem?_getD, List.getElem?_take, if_pos (by omega), List.getElem?_range (by omega)]
    rfl
  · rw [List.getD_eq_getElem?_getD, List.getElem?_reverse (by simp; omega)]
    simp only [List.length_drop, List.length_range, List.getElem?_drop]
    rw [List.getElem?_range (by omega)]
    simp only [Option.getD_some]
    omega

theorem calcPlyOrder_asym_length (n : Nat) : (calcPlyOrder false n).length = n := by
  simp [calcPlyOrder]

theorem calcPlyOrder_asym_perm (n : Nat) : (calcPlyOrder false n).Perm (List.range n) := by
  have hl := calcPlyOrder_asym_length n
  have hnd : (calcPlyOrder false n).Nodup := by
    rw [List.nodup_iff_injective_getElem]
    rintro ⟨i, hi⟩ ⟨j, hj⟩ h
    have h1 := calcPlyOrder_asym_getElem n i (by omega)
    have h2 := calcPlyOrder_asym_getElem n j (by omega)
    rw [List.getElem?_eq_getElem hi, Option.some.injEq] at h1
    rw [List.getElem?_eq_getElem hj, Option.some.injEq] at h2
    simp only at h
    rw [h1, h2] at h
    simp only [Fin.mk.injEq]
    split at h <;> split at h <;> omega
  have hsub : (calcPlyOrder false n) ⊆ List.range n := by
    intro x hx
    obtain ⟨i, hi, rfl⟩ := List.mem_iff_getElem.1 hx
    have h1 := calcPlyOrder_asym_getElem n i (by omega)
    rw [List.getElem?_eq_getElem hi, Option.some.injEq] at h1
    rw [h1, List.mem_range]
    split <;> omega
  exact (hnd.subperm hsub).perm_of_length_le (by simp [hl])

/-- C19: for a symmetric laminate the plies of the lower half, middle ply included, are optimised in
order; for another laminate every ply is optimised exactly once, alternately from the bottom and
from the top. -/
theorem C19_ply_order (n : Nat) :
    calcPlyOrder true n = List.range ((n + 1) / 2) ∧
    (calcPlyOrder false n).Perm (List.range n) ∧
    ∀ i, i < n → (calcPlyOrder false n)[i]? = some (if i % 2 = 0 then i / 2 else n - 1 - i / 2) := by
  refine ⟨?_, calcPlyOrder_asym_perm n, fun i hi => calcPlyOrder_asym_getElem n i hi⟩
  simp only [calcPlyOrder, if_true, halfUp]
  congr 1
  omega

example : calcPlyOrder false 7 = [0, 6, 1, 5, 2, 4, 3] := by decide +kernel
example : calcPlyOrder true 7 = [0, 1, 2, 3] := by decide +kernel

theorem calcLevels_ok (order : List Nat) (gs : List Nat) (k : Nat) (h : k + gs.sum ≤ order.length) :
    ∃ lv, calcLevels order gs k = .ok lv ∧ lv.map List.length = gs ∧
      lv.flatten = (order.drop k).take gs.sum := by
  induction gs generalizing k with
  | nil => exact ⟨[], rfl, rfl, by simp⟩
  | cons g gs ih =>
    simp only [List.sum_cons] at h
    obtain ⟨rest, h1, h2, h3⟩ := ih (k + g) (by omega)
    have hm : (List.range g).mapM (fun i => pyGet order (k + i))
        = .ok ((List.range g).map (fun i => order.getD (k + i) 0)) := by
      apply mapM_ok
      intro i hi
      have := List.mem_range.1 hi
      rw [pyGet_ok (by omega)]
      simp [List.getD_eq_getElem?_getD, show k + i < order.length by omega]
    have e : (List.range g).map (fun i => order.getD (k + i) 0) = (order.drop k).take g := by
      apply List.ext_getElem
      · simp; omega
      · intro i h1 h2
        simp at h1
        simp [List.getD_eq_getElem?_getD, show k + i < order.length by omega]
    refine ⟨(order.drop k).take g :: rest, ?_, ?_, ?_⟩
    · unfold calcLevels
      rw [hm, h1, e]
      rfl
    · simp [h2]; omega
    · rw [List.flatten_cons, h3, List.sum_cons, List.take_add]
      simp [List.drop_drop]

/-- C19: LAYLA's ply groups: when the group sizes add up to the number of plies to optimise, the groups
are consecutive blocks of the ply order of the requested sizes, so that every ply is in exactly one
group. -/
theorem C19_levels_partition (sym : Bool) (n : Nat) (gs : List Nat)
    (h : gs.sum = (calcPlyOrder sym n).length) :
    ∃ lv, calcLevels (calcPlyOrder sym n) gs 0 = .ok lv ∧ lv.map List.length = gs ∧
      lv.flatten = calcPlyOrder sym n := by
  obtain ⟨lv, h1, h2, h3⟩ := calcLevels_ok (calcPlyOrder sym n) gs 0 (by omega)
  refine ⟨lv, h1, h2, ?_⟩
  rw [h3, h]
  simp

example : calcLevels (calcPlyOrder false 7) [3, 4] 0 = .ok [[0, 6, 1], [5, 2, 4, 3]] := by
  decide +kernel

/-! ### C20 -/

/-- `z ↦ z |z|`, whose increments are the absolute first moments. -/
def sqSign (z : ℚ) : ℚ := z * |z|

theorem posTop_eq (n i : Nat) : posTop n i = posBot n (i + 1) := by
  unfold posTop posBot; push_cast; ring

theorem posBot_lt (n i : Nat) (hn : 0 < n) : posBot n i < posTop n i := by
  have h : (0 : ℚ) < n := by exact_mod_cast hn
  have : 0 < 2 / (n : ℚ) := by positivity
  unfold posBot posTop
  nlinarith

theorem sqSign_sub (b t : ℚ) (h : b < t) :
    (t * b ≥ 0 → |t ^ 2 - b ^ 2| = sqSign t - sqSign b) ∧
    (¬ t * b ≥ 0 → |t ^ 2| + |b ^ 2| = sqSign t - sqSign b) := by
  unfold sqSign
  constructor
  · intro htb
    rcases le_or_gt 0 b with hb | hb
    · have ht : 0 ≤ t := by linarith
      rw [abs_of_nonneg ht, abs_of_nonneg hb, abs_of_nonneg (by nlinarith)]
      ring
    · have ht : t ≤ 0 := by
        by_contra hc
        push Not at hc
        nlinarith
      rw [abs_of_nonpos ht, abs_of_neg hb, abs_of_nonpos (by nlinarith)]
      ring
  · intro htb
    push Not at htb
    have hb : b < 0 := by
      by_contra hc
      push Not at hc
      nlinarith
    have ht : 0 < t := by
      by_contra hc
      push Not at hc
      nlinarith
    rw [abs_of_pos ht, abs_of_neg hb, abs_of_nonneg (by positivity), abs_of_nonneg (by positivity)]
    ring


theorem sqSign_lt (b t : ℚ) (h : b < t) : sqSign b < sqSign t := by
  unfold sqSign
  rcases le_or_gt 0 b with hb | hb
  · rw [abs_of_nonneg hb, abs_of_nonneg (by linarith)]; nlinarith
  · rcases le_or_gt 0 t with ht | ht
    · rw [abs_of_neg hb, abs_of_nonneg ht]; nlinarith
    · rw [abs_of_neg hb, abs_of_neg ht]; nlinarith

theorem cube_lt (b t : ℚ) (h : b < t) : b ^ 3 < t ^ 3 := by
  have h1 : 0 < t ^ 2 + t * b + b ^ 2 := by
    by_contra hc
    push Not at hc
    have : (t + b / 2) ^ 2 + 3 / 4 * b ^ 2 ≤ 0 := by nlinarith
    have hb : b ^ 2 = 0 := le_antisymm (by nlinarith [sq_nonneg (t + b / 2)]) (sq_nonneg b)
    have ht : (t + b / 2) ^ 2 = 0 := le_antisymm (by nlinarith [sq_nonneg b]) (sq_nonneg _)
    have hb' : b = 0 := pow_eq_zero_iff (two_ne_zero) |>.1 hb
    have ht' : t + b / 2 = 0 := pow_eq_zero_iff (two_ne_zero) |>.1 ht
    rw [hb'] at ht' h
    linarith
  nlinarith [mul_pos (sub_pos.2 h) h1]

/-- Interfaces of the lower half of a symmetric laminate: the last one is the mid-plane. -/
def symHeight (n i : Nat) : ℚ := if i = halfUp n then 0 else posBot n i

theorem posBot_half (n : Nat) (hn : 0 < n) (he : n % 2 = 0) : posBot n (halfUp n) = 0 := by
  unfold posBot halfUp
  obtain ⟨m, rfl⟩ : ∃ m, n = 2 * m := ⟨n / 2, by omega⟩
  have hm : (m : ℚ) ≠ 0 := by
    have : m ≠ 0 := by omega
    exact_mod_cast this
  rw [show 2 * m / 2 + 2 * m % 2 = m by omega]
  push_cast
  field_simp
  ring

theorem posTopSym_eq (n i : Nat) (hn : 0 < n) (hi : i < halfUp n) :
    posTopSym n i = symHeight n (i + 1) ∧ posBot n i = symHeight n i := by
  unfold posTopSym symHeight
  constructor
  · by_cases h : i + 1 = halfUp n
    · rw [if_pos h]
      by_cases ho : n % 2 = 0
      · rw [if_neg (by simp [ho]), posTop_eq, h, posBot_half n hn ho]
      · rw [if_pos ⟨ho, h⟩]
    · rw [if_neg h, if_neg (by simp [h]), posTop_eq]
  · rw [if_neg (by omega)]

theorem posBot_sym_lt (n i : Nat) (hn : 0 < n) (hi : i < halfUp n) :
    posBot n i < posTopSym n i ∧ posTopSym n i ≤ 0 := by
  have hq : (0 : ℚ) < n := by exact_mod_cast hn
  have h2 : 0 < 2 / (n : ℚ) := by positivity
  have hle : ∀ k : Nat, 2 * k ≤ n → posBot n k ≤ 0 := by
    intro k hk
    unfold posBot
    have : (2 : ℚ) * k ≤ n := by exact_mod_cast hk
    rw [div_mul_eq_mul_div, sub_nonpos, div_le_one hq]
    exact this
  unfold posTopSym
  unfold halfUp at *
  split
  · rename_i hc
    refine ⟨?_, le_refl _⟩
    unfold posBot
    have : (2 : ℚ) * i < n := by
      have : 2 * i < n := by omega
      exact_mod_cast this
    rw [div_mul_eq_mul_div, sub_neg, div_lt_one hq]
    exact this
  · rename_i hc
    refine ⟨posBot_lt n i hn, ?_⟩
    rw [posTop_eq]
    apply hle
    omega

/-- Componentwise sum of a table of moments. -/
def momSum (l : List Mom) : ℚ × ℚ × ℚ :=
  ((l.map (·.a)).sum, (l.map (·.b)).sum, (l.map (·.d)).sum)

theorem posBot_zero (n : Nat) : posBot n 0 = -1 := by simp [posBot]

theorem posBot_n (n : Nat) (hn : 0 < n) : posBot n n = 1 := by
  have hq : (n : ℚ) ≠ 0 := by
    have : n ≠ 0 := by omega
    exact_mod_cast this
  unfold posBot
  field_simp
  ring

theorem symHeight_zero (n : Nat) (hn : 0 < n) : symHeight n 0 = -1 := by
  unfold symHeight
  rw [if_neg (by unfold halfUp; omega), posBot_zero]

theorem symHeight_last (n : Nat) : symHeight n (halfUp n) = 0 := by simp [symHeight]

theorem sum_sym_aux (n : Nat) (hn : 0 < n) (F : ℚ → ℚ) (g : Nat → ℚ)
    (hg : ∀ i, i < halfUp n → g i = F (posTopSym n i) - F (posBot n i)) :
    ((List.range (halfUp n)).map g).sum = F 0 - F (-1) := by
  have : (List.range (halfUp n)).map g
      = (List.range (halfUp n)).map (fun i => F (symHeight n (i + 1)) - F (symHeight n i)) := by
    apply List.map_congr_left
    intro i hi
    have hi := List.mem_range.1 hi
    obtain ⟨h1, h2⟩ := posTopSym_eq n i hn hi
    rw [hg i hi, h1, ← h2]
  rw [this, sum_telescope (fun i => F (symHeight n i)), symHeight_last, symHeight_zero n hn]

theorem sum_asym_aux (n : Nat) (hn : 0 < n) (F : ℚ → ℚ) (g : Nat → ℚ)
    (hg : ∀ i, i < n → g i = (F (posTop n i) - F (posBot n i)) / 2) :
    ((calcPlyOrder false n).map g).sum = (F 1 - F (-1)) / 2 := by
  rw [((calcPlyOrder_asym_perm n).map g).sum_eq]
  have : (List.range n).map g
      = (List.range n).map (fun i => F (posBot n (i + 1)) / 2 - F (posBot n i) / 2) := by
    apply List.map_congr_left
    intro i hi
    rw [hg i (List.mem_range.1 hi), posTop_eq]
    ring
  rw [this, sum_telescope (fun i => F (posBot n i) / 2), posBot_n n hn, posBot_zero]
  ring

/-- C20: the signed moments of area of the plies add up to those of the laminate: area 1, first moment
0, second moment 1. -/
theorem C20_signed_sums (sym : Bool) (n : Nat) (hn : 0 < n) :
    momSum (momAreas sym n (calcPlyOrder sym n)) = (1, 0, 1) := by
  cases sym with
  | true =>
    unfold momSum momAreas
    simp only [if_true, List.map_map]
    refine Prod.ext ?_ (Prod.ext ?_ ?_)
    · show ((List.range (halfUp n)).map _).sum = 1
      rw [sum_sym_aux n hn (fun z => z)]
      · norm_num
      · intro i hi; rfl
    · show ((List.range (halfUp n)).map _).sum = 0
      rw [sum_sym_aux n hn (fun _ => 0)]
      · norm_num
      · intro i hi; simp
    · show ((List.range (halfUp n)).map _).sum = 1
      rw [sum_sym_aux n hn (fun z => z ^ 3)]
      · norm_num
      · intro i hi; rfl
  | false =>
    unfold momSum momAreas
    simp only [Bool.false_eq_true, if_false, List.map_map]
    refine Prod.ext ?_ (Prod.ext ?_ ?_)
    · show ((calcPlyOrder false n).map _).sum = 1
      rw [sum_asym_aux n hn (fun z => z)]
      · norm_num
      · intro i hi; rfl
    · show ((calcPlyOrder false n).map _).sum = 0
      rw [sum_asym_aux n hn (fun z => z ^ 2)]
      · norm_num
      · intro i hi; rfl
    · show ((calcPlyOrder false n).map _).sum = 1
      rw [sum_asym_aux n hn (fun z => z ^ 3)]
      · norm_num
      · intro i hi; rfl

theorem plus_asym_entry (n i : Nat) (hn : 0 < n) :
    (if posTop n i * posBot n i ≥ 0 then
      (⟨|posTop n i - posBot n i| / 2, |posTop n i ^ 2 - posBot n i ^ 2| / 2,
        |posTop n i ^ 3 - posBot n i ^ 3| / 2⟩ : Mom)
    else
      ⟨(|posTop n i| + |posBot n i|) / 2, (|posTop n i ^ 2| + |posBot n i ^ 2|) / 2,
        (|posTop n i ^ 3| + |posBot n i ^ 3|) / 2⟩) =
    ⟨(posTop n i - posBot n i) / 2, (sqSign (posTop n i) - sqSign (posBot n i)) / 2,
      (posTop n i ^ 3 - posBot n i ^ 3) / 2⟩ := by
  have hlt := posBot_lt n i hn
  generalize posTop n i = t at *
  generalize posBot n i = b at *
  obtain ⟨s1, s2⟩ := sqSign_sub b t hlt
  have hc := cube_lt b t hlt
  split
  · rename_i h
    rw [s1 h, abs_of_pos (by linarith), abs_of_pos (by linarith)]
  · rename_i h
    rw [s2 h]
    push Not at h
    have hb : b < 0 := by
      by_contra hc
      push Not at hc
      nlinarith
    have ht : 0 < t := by
      by_contra hc
      push Not at hc
      nlinarith
    have hb3 : b ^ 3 < 0 := by
      have := cube_lt b 0 hb; simpa using this
    rw [abs_of_pos ht, abs_of_neg hb, abs_of_pos (by positivity), abs_of_neg hb3]
    congr 1 <;> ring

theorem plus_sym_first (n i : Nat) (hn : 0 < n) (hi : i < halfUp n) :
    |posTopSym n i ^ 2 - posBot n i ^ 2| = sqSign (posTopSym n i) - sqSign (posBot n i) := by
  obtain ⟨h1, h2⟩ := posBot_sym_lt n i hn hi
  exact (sqSign_sub _ _ h1).1 (mul_nonneg_of_nonpos_of_nonpos h2 (by linarith))

/-- C20: the positive moments of area of the plies add up to one, for the area, the first and the
second moment. -/
theorem C20_positive_sums (sym : Bool) (n : Nat) (hn : 0 < n) :
    momSum (momAreasPlus sym n (calcPlyOrder sym n)) = (1, 1, 1) := by
  cases sym with
  | true =>
    unfold momSum momAreasPlus
    simp only [if_true, List.map_map]
    refine Prod.ext ?_ (Prod.ext ?_ ?_)
    · show ((List.range (halfUp n)).map _).sum = 1
      rw [sum_sym_aux n hn (fun z => z)]
      · norm_num
      · intro i hi; rfl
    · show ((List.range (halfUp n)).map _).sum = 1
      rw [sum_sym_aux n hn sqSign]
      · norm_num [sqSign]
      · intro i hi; exact plus_sym_first n i hn hi
    · show ((List.range (halfUp n)).map _).sum = 1
      rw [sum_sym_aux n hn (fun z => z ^ 3)]
      · norm_num
      · intro i hi; rfl
  | false =>
    unfold momSum momAreasPlus
    simp only [Bool.false_eq_true, if_false, plus_asym_entry n _ hn, List.map_map]
    refine Prod.ext ?_ (Prod.ext ?_ ?_)
    · show ((calcPlyOrder false n).map _).sum = 1
      rw [sum_asym_aux n hn (fun z => z)]
      · norm_num
      · intro i hi; rfl
    · show ((calcPlyOrder false n).map _).sum = 1
      rw [sum_asym_aux n hn sqSign]
      · norm_num [sqSign]
      · intro i hi; rfl
    · show ((calcPlyOrder false n).map _).sum = 1
      rw [sum_asym_aux n hn (fun z => z ^ 3)]
      · norm_num
      · intro i hi; rfl

/-- C20: the positive moments of area of every ply are positive. -/
theorem C20_positive (sym : Bool) (n : Nat) (hn : 0 < n) :
    ∀ m ∈ momAreasPlus sym n (calcPlyOrder sym n), 0 < m.a ∧ 0 < m.b ∧ 0 < m.d := by
  intro m hm
  cases sym with
  | true =>
    simp only [momAreasPlus, if_true, List.mem_map, List.mem_range] at hm
    obtain ⟨i, hi, rfl⟩ := hm
    obtain ⟨h1, _⟩ := posBot_sym_lt n i hn hi
    have := plus_sym_first n i hn hi
    refine ⟨by simp only; linarith, ?_, ?_⟩
    · simp only [this]; linarith [sqSign_lt _ _ h1]
    · simp only; linarith [cube_lt _ _ h1]
  | false =>
    simp only [momAreasPlus, Bool.false_eq_true, if_false, plus_asym_entry n _ hn, List.mem_map] at hm
    obtain ⟨i, hi, rfl⟩ := hm
    have h1 := posBot_lt n i hn
    refine ⟨by simp only; linarith, ?_, ?_⟩
    · simp only; linarith [sqSign_lt _ _ h1]
    · simp only; linarith [cube_lt _ _ h1]

theorem addFrom_length (l : List ℚ) (j : Nat) (x : ℚ) : (addFrom l j x).length = l.length := by
  simp [addFrom]; omega

theorem addFrom_getElem? (l : List ℚ) (j i : Nat) (x : ℚ) :
    (addFrom l j x)[i]? = (l[i]?).map (fun y => if j ≤ i then y + x else y) := by
  unfold addFrom
  rcases Nat.lt_or_ge i j with h | h
  · by_cases hi : i < l.length
    · rw [List.getElem?_append_left (by simp; omega), List.getElem?_take, if_pos h,
        List.getElem?_eq_getElem hi]
      simp; intro; omega
    · rw [List.getElem?_eq_none (by simp; omega), List.getElem?_eq_none (by omega)]; rfl
  · by_cases hi : i < l.length
    · rw [List.getElem?_append_right (by simp; omega)]
      simp only [List.length_take, List.getElem?_map, List.getElem?_drop]
      rw [show j + (i - min j l.length) = i by omega]
      simp [h]
    · rw [List.getElem?_eq_none (by simp; omega), List.getElem?_eq_none (by omega)]; rfl

theorem cummulLoop_spec (moms : List ℚ) (row : Stack) : ∀ (j k : Nat) (acc : List ℚ),
    k + row.countP (fun x => x != -1) ≤ moms.length →
    ∃ out, cummulLoop moms row j k acc = .ok out ∧ out.length = acc.length ∧
      ∀ (i : Nat) (y : ℚ), acc[i]? = some y →
        out[i]? = some (y + ((moms.drop k).take (Spec.plyCount row (i + 1 - j))).sum) := by
  induction row with
  | nil =>
    intro j k acc _
    refine ⟨acc, rfl, rfl, ?_⟩
    intro i y hy
    simp [Spec.plyCount, hy]
  | cons d row ih =>
    intro j k acc hk
    unfold cummulLoop
    by_cases hd : d = -1
    · rw [if_neg (by simpa using hd)]
      obtain ⟨out, h1, h2, h3⟩ := ih (j + 1) k acc (by simpa [List.countP_cons, hd] using hk)
      refine ⟨out, h1, h2, ?_⟩
      intro i y hy
      rw [h3 i y hy]
      rcases Nat.lt_or_ge i j with h | h
      · rw [show i + 1 - (j + 1) = 0 by omega, show i + 1 - j = 0 by omega]
        simp [Spec.plyCount]
      · rw [show i + 1 - j = (i + 1 - (j + 1)) + 1 by omega, plyCount_cons_succ, if_pos hd]
        rfl
    · rw [if_pos (by simpa using hd)]
      rw [List.countP_cons, if_pos (by simpa using hd)] at hk
      have hlt : k < moms.length := by omega
      obtain ⟨out, h1, h2, h3⟩ := ih (j + 1) (k + 1) (addFrom acc j moms[k]) (by omega)
      refine ⟨out, by rw [pyGet_ok hlt]; exact h1, by rw [h2, addFrom_length], ?_⟩
      intro i y hy
      have := h3 i (if j ≤ i then y + moms[k] else y) (by rw [addFrom_getElem?, hy]; rfl)
      rw [this]
      rcases Nat.lt_or_ge i j with h | h
      · rw [show i + 1 - (j + 1) = 0 by omega, show i + 1 - j = 0 by omega, if_neg (by omega)]
        simp [Spec.plyCount]
      · rw [show i + 1 - j = (i + 1 - (j + 1)) + 1 by omega, plyCount_cons_succ, if_neg hd, if_pos h,
          List.drop_eq_getElem_cons hlt, List.take_succ_cons, List.sum_cons]
        congr 1
        ring

/-- C20: the cumulated moments of area at a column of the layout are the sum of the moments of the
plies of the panel up to this column; they never decrease along the layout, and end at the moments
of the whole panel when the layout row holds all its plies. -/
theorem C20_cumulated (moms : List ℚ) (row : Stack)
    (hrow : row.countP (fun x => x != -1) = moms.length) :
    ∃ out, cummulRow moms row = .ok out ∧ out.length = row.length ∧
      (∀ i, i < row.length → out[i]? = some ((moms.take (Spec.plyCount row (i + 1))).sum)) ∧
      ((∀ m ∈ moms, 0 ≤ m) → out.Pairwise (· ≤ ·)) ∧
      (∀ last, out.getLast? = some last → last = moms.sum) := by
  obtain ⟨out, h1, h2, h3⟩ := cummulLoop_spec moms row 0 0 (List.replicate row.length 0) (by omega)
  simp only [List.length_replicate] at h2
  have h4 : ∀ i, i < row.length → out[i]? = some ((moms.take (Spec.plyCount row (i + 1))).sum) := by
    intro i hi
    have := h3 i 0 (by simp [hi])
    simpa using this
  refine ⟨out, h1, h2, h4, ?_, ?_⟩
  · intro hm
    rw [List.pairwise_iff_getElem]
    intro i j hi hj hij
    have e1 := h4 i (by omega)
    have e2 := h4 j (by omega)
    rw [List.getElem?_eq_getElem hi, Option.some.injEq] at e1
    rw [List.getElem?_eq_getElem hj, Option.some.injEq] at e2
    rw [e1, e2]
    have hp := plyCount_mono row (show i + 1 ≤ j + 1 by omega)
    obtain ⟨t, ht⟩ := List.take_prefix_take_left (l := moms) hp
    rw [← ht, List.sum_append]
    have : 0 ≤ t.sum := by
      apply List.sum_nonneg
      intro x hx
      apply hm
      have : x ∈ moms.take (Spec.plyCount row (j + 1)) := by rw [← ht]; simp [hx]
      exact List.mem_of_mem_take this
    linarith
  · intro last hl
    rw [List.getLast?_eq_getElem?, h2] at hl
    rcases Nat.eq_zero_or_pos row.length with h0 | h0
    · rw [List.getElem?_eq_none (by omega)] at hl; cases hl
    · rw [h4 _ (by omega), Nat.sub_add_cancel h0, Option.some.injEq] at hl
      rw [← hl]
      unfold Spec.plyCount
      rw [List.take_length, hrow, List.take_length]

example : cummulRow [1 / 2, 1 / 4, 1 / 4] [0, -1, 1, 2] = .ok [1 / 2, 1 / 2, 3 / 4, 1] := by
  decide +kernel

/-! ### C50 -/

theorem height_eq (n i : Nat) : Spec.height n i = posBot n i := by
  unfold Spec.height posBot; ring

theorem height_reflect (n i : Nat) (hn : 0 < n) (hi : i ≤ n) : posBot n (n - i) = - posBot n i := by
  unfold posBot
  have hq : (n : ℚ) ≠ 0 := by
    have : n ≠ 0 := by omega
    exact_mod_cast this
  rw [Nat.cast_sub hi]
  field_simp
  ring

theorem momAreas_getD_sym (n i : Nat) (hi : i < halfUp n) (order : List Nat) :
    (momAreas true n order).getD i ⟨0, 0, 0⟩
      = ⟨posTopSym n i - posBot n i, 0, posTopSym n i ^ 3 - posBot n i ^ 3⟩ := by
  unfold momAreas
  simp [List.getD_eq_getElem?_getD, List.getElem?_range hi]

theorem deltaLampam_sym (n i : Nat) (hi : i < halfUp n) (order : List Nat) (c : ℚ) :
    deltaLampam true n (momAreas true n order) i c
      = ((posTopSym n i - posBot n i) * c, 0, (posTopSym n i ^ 3 - posBot n i ^ 3) * c) := by
  unfold deltaLampam
  rw [momAreas_getD_sym n i hi]
  simp only [if_true]
  rw [if_neg]
  unfold halfUp
  omega

/-- Half of a symmetric sum over the thickness. -/
theorem half_sum (n : Nat) (hn : 0 < n) (ss : Stack) (hl : ss.length = n) (hs : ss.reverse = ss)
    (c : Int → ℚ) (F : ℚ → ℚ) (hF : ∀ z, F (-z) = - F z) :
    (ss.zipIdx.map (fun p => c p.1 * (F (Spec.height ss.length (p.2 + 1))
        - F (Spec.height ss.length p.2)))).sum / 2
      = ∑ i ∈ Finset.range (halfUp n), (F (posTopSym n i) - F (posBot n i)) * c (ss.getD i 0) := by
  have hF0 : F 0 = 0 := by have := hF 0; simp at this; linarith
  rw [zipIdx_map_sum ss 0 (fun a i => c a * (F (Spec.height ss.length (i + 1))
        - F (Spec.height ss.length i))), hl]
  have hrefl : ∀ i, i < n → ss.getD (n - 1 - i) 0 = ss.getD i 0 := by
    intro i hi
    have : ss.reverse.getD i 0 = ss.getD i 0 := by rw [hs]
    rw [← this, List.getD_eq_getElem?_getD, List.getD_eq_getElem?_getD,
      List.getElem?_reverse (by omega), hl]
  rw [sum_symm _ n (by
    intro i hi
    rw [hrefl i hi, height_eq, height_eq, height_eq, height_eq,
      show n - 1 - i + 1 = n - i by omega, height_reflect n i hn (by omega),
      show n - 1 - i = n - (i + 1) by omega, height_reflect n (i + 1) hn (by omega), hF, hF]
    ring)]
  have hlow : ∀ i, i < n / 2 → posTopSym n i = posBot n (i + 1) := by
    intro i hi
    unfold posTopSym halfUp
    rw [if_neg (by omega), posTop_eq]
  have hsum : ∑ i ∈ Finset.range (n / 2), c (ss.getD i 0) *
        (F (Spec.height n (i + 1)) - F (Spec.height n i))
      = ∑ i ∈ Finset.range (n / 2), (F (posTopSym n i) - F (posBot n i)) * c (ss.getD i 0) := by
    apply Finset.sum_congr rfl
    intro i hi
    rw [Finset.mem_range] at hi
    rw [height_eq, height_eq, hlow i hi]
    ring
  rw [hsum]
  rcases Nat.mod_two_eq_zero_or_one n with h0 | h0
  · rw [if_neg (by omega), show halfUp n = n / 2 by unfold halfUp; omega]
    ring
  · rw [if_pos h0, show halfUp n = n / 2 + 1 by unfold halfUp; omega, Finset.sum_range_succ]
    have hmid : posTopSym n (n / 2) = 0 := by
      unfold posTopSym halfUp
      rw [if_pos (by omega)]
    have hm2 : posBot n (n / 2 + 1) = - posBot n (n / 2) := by
      rw [← height_reflect n (n / 2) hn (by omega)]
      congr 1
      omega
    rw [hmid, hF0, height_eq, height_eq, hm2, hF]
    ring

/-- C50: for a symmetric laminate the partial lamination parameters of the plies of the lower half
(middle ply included) add up to the lamination parameters of the whole laminate; the coupling ones
vanish. -/
theorem C50_symmetric (n : Nat) (hn : 0 < n) (ss : Stack) (hl : ss.length = n)
    (hs : ss.reverse = ss) (c : Int → ℚ) :
    let moms := momAreas true n (calcPlyOrder true n)
    let parts := (List.range (halfUp n)).map (fun i => deltaLampam true n moms i (c (ss.getD i 0)))
    (parts.map (·.1)).sum = Spec.lampamA c ss ∧ (parts.map (·.2.1)).sum = Spec.lampamB c ss ∧
      (parts.map (·.2.2)).sum = Spec.lampamD c ss ∧ Spec.lampamB c ss = 0 := by
  have e : ∀ g : ℚ × ℚ × ℚ → ℚ, ((List.range (halfUp n)).map (fun i =>
        deltaLampam true n (momAreas true n (calcPlyOrder true n)) i (c (ss.getD i 0)))).map g
      = (List.range (halfUp n)).map (fun i => g ((posTopSym n i - posBot n i) * c (ss.getD i 0), 0,
          (posTopSym n i ^ 3 - posBot n i ^ 3) * c (ss.getD i 0))) := by
    intro g
    rw [List.map_map]
    apply List.map_congr_left
    intro i hi
    simp only [Function.comp_apply]
    rw [deltaLampam_sym n i (List.mem_range.1 hi)]
  have hB : Spec.lampamB c ss = 0 := by
    unfold Spec.lampamB
    rw [zipIdx_map_sum ss 0 (fun a i => c a * (Spec.height ss.length (i + 1) ^ 2
        - Spec.height ss.length i ^ 2)), hl]
    have : ∑ i ∈ Finset.range n, c (ss.getD i 0) * (Spec.height n (i + 1) ^ 2 - Spec.height n i ^ 2)
        = - ∑ i ∈ Finset.range n, c (ss.getD i 0) *
            (Spec.height n (i + 1) ^ 2 - Spec.height n i ^ 2) := by
      conv_lhs => rw [← Finset.sum_range_reflect]
      rw [← Finset.sum_neg_distrib]
      apply Finset.sum_congr rfl
      intro i hi
      rw [Finset.mem_range] at hi
      have hrefl : ss.getD (n - 1 - i) 0 = ss.getD i 0 := by
        have : ss.reverse.getD i 0 = ss.getD i 0 := by rw [hs]
        rw [← this, List.getD_eq_getElem?_getD, List.getD_eq_getElem?_getD,
          List.getElem?_reverse (by omega), hl]
      rw [hrefl, height_eq, height_eq, height_eq, height_eq,
        show n - 1 - i + 1 = n - i by omega, height_reflect n i hn (by omega),
        show n - 1 - i = n - (i + 1) by omega, height_reflect n (i + 1) hn (by omega)]
      ring
    linarith
  intro moms parts
  refine ⟨?_, ?_, ?_, hB⟩
  · show (List.map (·.1) parts).sum = _
    rw [e, list_sum_range]
    unfold Spec.lampamA
    rw [half_sum n hn ss hl hs c (fun z => z) (fun z => rfl)]
  · show (List.map (·.2.1) parts).sum = _
    rw [e, hB]
    simp
  · show (List.map (·.2.2) parts).sum = _
    rw [e, list_sum_range]
    unfold Spec.lampamD
    rw [half_sum n hn ss hl hs c (fun z => z ^ 3) (fun z => by ring)]

/-- C50: for an asymmetric laminate the partial lamination parameters of the plies, taken in the order
in which they are optimised, add up to the lamination parameters of the laminate. -/
theorem C50_asymmetric (n : Nat) (ss : Stack) (hl : ss.length = n) (c : Int → ℚ) :
    let order := calcPlyOrder false n
    let moms := momAreas false n order
    let parts := (List.range n).map (fun i =>
      deltaLampam false n moms i (c (ss.getD (order.getD i 0) 0)))
    (parts.map (·.1)).sum = Spec.lampamA c ss ∧ (parts.map (·.2.1)).sum = Spec.lampamB c ss ∧
      (parts.map (·.2.2)).sum = Spec.lampamD c ss := by
  have key : ∀ (F : ℚ → ℚ) (g : ℚ × ℚ × ℚ → ℚ)
      (hg : ∀ i, i < n → g (deltaLampam false n (momAreas false n (calcPlyOrder false n)) i
          (c (ss.getD ((calcPlyOrder false n).getD i 0) 0)))
        = (F (posTop n ((calcPlyOrder false n).getD i 0))
          - F (posBot n ((calcPlyOrder false n).getD i 0))) / 2
          * c (ss.getD ((calcPlyOrder false n).getD i 0) 0)),
      (((List.range n).map (fun i => deltaLampam false n
        (momAreas false n (calcPlyOrder false n)) i
          (c (ss.getD ((calcPlyOrder false n).getD i 0) 0)))).map g).sum =
      (ss.zipIdx.map (fun p => c p.1 * (F (Spec.height ss.length (p.2 + 1))
        - F (Spec.height ss.length p.2)))).sum / 2 := by
    intro F g hg
    rw [List.map_map]
    have e1 : (List.range n).map (g ∘ fun i => deltaLampam false n
          (momAreas false n (calcPlyOrder false n)) i
          (c (ss.getD ((calcPlyOrder false n).getD i 0) 0)))
        = (calcPlyOrder false n).map (fun j => (F (posTop n j) - F (posBot n j)) / 2
            * c (ss.getD j 0)) := by
      apply List.ext_getElem
      · simp [calcPlyOrder_asym_length]
      · intro i h1 h2
        simp only [List.length_map, List.length_range] at h1
        have hlen := calcPlyOrder_asym_length n
        simp only [List.getElem_map, List.getElem_range, Function.comp_apply]
        rw [hg i h1]
        have : (calcPlyOrder false n).getD i 0 = (calcPlyOrder false n)[i] := by
          simp [List.getD_eq_getElem?_getD, hlen, h1]
        rw [this]
    rw [e1, ((calcPlyOrder_asym_perm n).map _).sum_eq, list_sum_range,
      zipIdx_map_sum ss 0 (fun a i => c a * (F (Spec.height ss.length (i + 1))
        - F (Spec.height ss.length i))), hl, Finset.sum_div]
    apply Finset.sum_congr rfl
    intro i _
    rw [height_eq, height_eq, posTop_eq]
    ring
  have hget : ∀ i, i < n → (momAreas false n (calcPlyOrder false n)).getD i ⟨0, 0, 0⟩
      = ⟨(posTop n ((calcPlyOrder false n).getD i 0) - posBot n ((calcPlyOrder false n).getD i 0)) / 2,
        (posTop n ((calcPlyOrder false n).getD i 0) ^ 2
          - posBot n ((calcPlyOrder false n).getD i 0) ^ 2) / 2,
        (posTop n ((calcPlyOrder false n).getD i 0) ^ 3
          - posBot n ((calcPlyOrder false n).getD i 0) ^ 3) / 2⟩ := by
    intro i hi
    have hlen := calcPlyOrder_asym_length n
    unfold momAreas
    simp [List.getD_eq_getElem?_getD, hlen, hi]
  intro order moms parts
  refine ⟨?_, ?_, ?_⟩
  · unfold Spec.lampamA
    rw [← key (fun z => z) (·.1)]
    intro i hi
    simp only [deltaLampam, hget i hi]
    simp
  · unfold Spec.lampamB
    rw [← key (fun z => z ^ 2) (·.2.1)]
    intro i hi
    simp only [deltaLampam, hget i hi]
    simp
  · unfold Spec.lampamD
    rw [← key (fun z => z ^ 3) (·.2.2)]
    intro i hi
    simp only [deltaLampam, hget i hi]
    simp

example : ([45, 0, 45] : Stack).length = 3 ∧ ([45, 0, 45] : Stack).reverse = [45, 0, 45] := by decide

end Bella
