import Verif.Model.RepairTools
import Verif.Proofs.Monad
import Mathlib.Tactic.Linarith
import Mathlib.Tactic.FieldSimp
import Mathlib.Tactic.Positivity
import Mathlib.Data.List.Sort
/-
C82: the helper functions of the repair module.
-/
namespace Bella

/-- C82: the difference of two ply angles is the smallest angle between the two fibre directions: at most 90, zero only for equal
directions, and equal to the difference of the angles, or its opposite, up to half turns. -/
theorem C82_delta_angle (a b : Int) (ha : -90 < a ∧ a ≤ 90) (hb : -90 < b ∧ b ≤ 90) :
    0 ≤ calcDeltaAngle a b ∧ calcDeltaAngle a b ≤ 90 ∧ (calcDeltaAngle a b = 0 ↔ a = b) ∧
      calcDeltaAngle a b = calcDeltaAngle b a ∧
      ((180 : Int) ∣ (b - a) - calcDeltaAngle a b ∨ (180 : Int) ∣ (b - a) + calcDeltaAngle a b) := by
  unfold calcDeltaAngle
  simp only [abs_eq_max_neg]
  refine ⟨by omega, by omega, by omega, by omega, by omega⟩

/-- Distance of ply `i` of `n` to the nearest face, in plies. -/
def pliesToFace (i n : Int) : Int := min i (n - 1 - i)

theorem facePosition_eq {i n : Int} (_h0 : 0 ≤ i) (_h1 : i < n) : facePosition i n = pliesToFace i n := by
  unfold facePosition pliesToFace
  have h : ((i : ℚ) < (n : ℚ) / 2) ↔ 2 * i < n := by
    rw [lt_div_iff₀ (by norm_num : (0 : ℚ) < 2)]
    constructor
    · intro h
      have : ((i * 2 : Int) : ℚ) < (n : Int) := by push_cast; exact h
      have := Int.cast_lt.1 this
      omega
    · intro h
      have : ((i * 2 : Int) : ℚ) < (n : Int) := Int.cast_lt.2 (by omega)
      push_cast at this
      exact this
  by_cases hc : 2 * i < n
  · rw [if_pos (h.2 hc)]; omega
  · rw [if_neg (fun hh => hc (h.1 hh))]; omega

/-- C82: for two plies of a laminate `calc_distanciation` is the difference of their distances to the nearest face, normalised by half the
number of plies; it is at least 0 and less than 1, zero exactly for plies at the same distance from the faces, and the same for the plies in the other
order. -/
theorem C82_distanciation_two (i j n : Int) (hi : 0 ≤ i ∧ i < n) (hj : 0 ≤ j ∧ j < n) :
    ∃ d, calcDistanciation i n (some j) = .ok d ∧ d = (|pliesToFace i n - pliesToFace j n| : Int) / ((n : ℚ) / 2) ∧ 0 ≤ d ∧ d < 1 ∧
      (d = 0 ↔ j = i ∨ j = n - 1 - i) ∧ calcDistanciation j n (some i) = .ok d := by
  have hn : (0 : ℚ) < n := Int.cast_pos.2 (by omega)
  have e : ∀ a b : Int, 2 * |((pliesToFace a n : Int) : ℚ) - ((pliesToFace b n : Int) : ℚ)| / (n : ℚ) =
      ((|pliesToFace a n - pliesToFace b n| : Int) : ℚ) / ((n : ℚ) / 2) := by
    intro a b
    push_cast
    field_simp
  have h1 : calcDistanciation i n (some j) = .ok (((|pliesToFace i n - pliesToFace j n| : Int) : ℚ) / ((n : ℚ) / 2)) := by
    unfold calcDistanciation
    simp only [otherPosition]
    rw [if_neg (by omega), facePosition_eq hi.1 hi.2, facePosition_eq hj.1 hj.2, e]
  have h2 : calcDistanciation j n (some i) = .ok (((|pliesToFace i n - pliesToFace j n| : Int) : ℚ) / ((n : ℚ) / 2)) := by
    unfold calcDistanciation
    simp only [otherPosition]
    rw [if_neg (by omega), facePosition_eq hi.1 hi.2, facePosition_eq hj.1 hj.2, e, abs_sub_comm]
  refine ⟨_, h1, rfl, ?_, ?_, ?_, h2⟩
  · apply div_nonneg
    · exact Int.cast_nonneg (abs_nonneg _)
    · positivity
  · rw [div_lt_one (by positivity), lt_div_iff₀ (by norm_num)]
    have : ((|pliesToFace i n - pliesToFace j n| * 2 : Int) : ℚ) < (n : Int) := by
      apply Int.cast_lt.2
      unfold pliesToFace
      rw [abs_eq_max_neg]
      omega
    push_cast at this ⊢
    exact this
  · rw [div_eq_zero_iff, or_iff_left (by positivity), Int.cast_eq_zero]
    unfold pliesToFace
    rw [abs_eq_max_neg]
    omega

/-- C82: for one ply `calc_distanciation` is positive and at most 1, 1 exactly for the outer plies, and larger for a ply nearer to a face. -/
theorem C82_distanciation_one (n : Int) : ∀ i, 0 ≤ i ∧ i < n →
    ∃ d, calcDistanciation i n none = .ok d ∧ 0 < d ∧ d ≤ 1 ∧ (d = 1 ↔ i = 0 ∨ i = n - 1) ∧
      ∀ j, 0 ≤ j ∧ j < n → ∀ d', calcDistanciation j n none = .ok d' → (d' < d ↔ pliesToFace i n < pliesToFace j n) := by
  have e : ∀ i, 0 ≤ i ∧ i < n → calcDistanciation i n none = .ok (1 - 2 * (pliesToFace i n : ℚ) / n) := by
    intro i hi
    have hn : (0 : ℚ) < n := Int.cast_pos.2 (by omega)
    unfold calcDistanciation otherPosition
    rw [if_neg (by omega), facePosition_eq hi.1 hi.2]
    have h2 : ((pliesToFace i n : Int) : ℚ) - (n : ℚ) / 2 ≤ 0 := by
      have : ((2 * pliesToFace i n : Int) : ℚ) ≤ (n : Int) := by
        apply Int.cast_le.2
        unfold pliesToFace
        omega
      push_cast at this
      linarith
    rw [abs_of_nonpos h2]
    congr 1
    field_simp
    ring
  intro i hi
  have hn : (0 : ℚ) < n := Int.cast_pos.2 (by omega)
  have hlt : 2 * (pliesToFace i n : ℚ) < n := by
    have : ((2 * pliesToFace i n : Int) : ℚ) < (n : Int) := by
      apply Int.cast_lt.2
      unfold pliesToFace
      omega
    push_cast at this
    exact this
  have hge : (0 : ℚ) ≤ (pliesToFace i n : ℚ) := Int.cast_nonneg (by unfold pliesToFace; omega)
  refine ⟨_, e i hi, ?_, ?_, ?_, ?_⟩
  · have : 2 * (pliesToFace i n : ℚ) / n < 1 := by rw [div_lt_one hn]; exact hlt
    linarith
  · have : 0 ≤ 2 * (pliesToFace i n : ℚ) / n := by positivity
    linarith
  · rw [sub_eq_self, div_eq_zero_iff, or_iff_left (ne_of_gt hn), mul_eq_zero, or_iff_right (by norm_num), Int.cast_eq_zero]
    unfold pliesToFace
    omega
  · intro j hj d' hd'
    rw [e j hj] at hd'
    cases hd'
    rw [sub_lt_sub_iff_left, div_lt_div_iff_of_pos_right hn, mul_lt_mul_iff_right₀ (by norm_num : (0 : ℚ) < 2), Int.cast_lt]

/-- C82: with the default coefficients, plies with equal balance status are ranked by `objective_repair` on the difference of fibre
direction and on the distance to the faces together; the value is between 0 and 3/4, and zero exactly for the same direction at the same distance. -/
theorem C82_objective_repair (delta : ℚ) (i j n : Int) (hd : 0 ≤ delta ∧ delta ≤ 90) (hi : 0 ≤ i ∧ i < n) (hj : 0 ≤ j ∧ j < n) :
    ∃ o, objectiveRepair delta i j n 0 (1 / 2) (1 / 2) (1 / 2) = .ok o ∧ 0 ≤ o ∧ o < 3 / 4 ∧
      (o = 0 ↔ delta = 0 ∧ (j = i ∨ j = n - 1 - i)) := by
  obtain ⟨d, h1, -, h2, h3, h4, -⟩ := C82_distanciation_two i j n hi hj
  refine ⟨- (1 / 2) * 0 + 1 / 2 * delta / 180 + 1 / 2 * d, by unfold objectiveRepair; rw [h1]; rfl, ?_, ?_, ?_⟩
  · have : 0 ≤ 1 / 2 * delta / 180 := by have := hd.1; positivity
    linarith
  · linarith [hd.2]
  · rw [← h4]
    constructor
    · intro h
      have := hd.1
      exact ⟨by linarith, by linarith⟩
    · rintro ⟨h5, h6⟩
      rw [h5, h6]
      ring

/-- The plies of `a` at the positions where `ss` is undetermined. -/
def missingPlies (ss a : Stack) : Stack := ((ss.zip a).filter (fun x => x.1 == 666)).map (fun x => x.2)

theorem maskOf_eq_filter (ss a : Stack) (h : ss.length = a.length) :
    decide (ss.filter (fun x => x != 666) = ((ss.zip a).filter (fun x => x.1 != 666)).map (fun x => x.2)) =
      decide (∀ k, k < ss.length → ss.getD k 0 ≠ 666 → ss.getD k 0 = a.getD k 0) := by
  rw [decide_eq_decide]
  induction ss generalizing a with
  | nil => simp
  | cons x t ih =>
    cases a with
    | nil => simp at h
    | cons y s =>
      have h' : t.length = s.length := by simpa using h
      have ihh := ih s h'
      have hsplit : (∀ k, k < (x :: t).length → (x :: t).getD k 0 ≠ 666 → (x :: t).getD k 0 = (y :: s).getD k 0) ↔
          (x ≠ 666 → x = y) ∧ ∀ k, k < t.length → t.getD k 0 ≠ 666 → t.getD k 0 = s.getD k 0 := by
        constructor
        · intro hh
          refine ⟨fun h6 => by simpa using hh 0 (by simp) (by simpa using h6), fun k hk h6 => ?_⟩
          simpa using hh (k + 1) (by simpa using hk) (by simpa using h6)
        · rintro ⟨h1, h2⟩ k hk h6
          cases k with
          | zero => simpa using h1 (by simpa using h6)
          | succ k => simpa using h2 k (by simpa using hk) (by simpa using h6)
      rw [hsplit]
      by_cases hx : x = 666
      · subst hx
        simpa using ihh
      · rw [List.zip_cons_cons, List.filter_cons_of_pos (by simpa using hx), List.filter_cons_of_pos (by simpa using hx),
          List.map_cons, List.cons.injEq, ihh]
        simp [hx]

theorem insertionSort_eq_iff (a b : Stack) : a.insertionSort (· ≤ ·) = b.insertionSort (· ≤ ·) ↔ a.Perm b := by
  constructor
  · intro h
    exact ((List.perm_insertionSort _ a).symm.trans (List.Perm.of_eq h)).trans (List.perm_insertionSort _ b)
  · intro h
    exact List.Perm.eq_of_sortedLE (List.sortedLE_insertionSort (l := a)) (List.sortedLE_insertionSort (l := b))
      (((List.perm_insertionSort _ a).trans h).trans (List.perm_insertionSort _ b).symm)

/-- C82: when the queue has as many plies as are missing (counting each twice for a symmetric laminate), `is_equal` answers whether the known plies
are those of the initial stacking sequence and the plies of the queue are, in some order, the missing ones. -/
theorem C82_is_equal (ss queue ssIni : Stack) (sym : Bool) (hl : ss.length = ssIni.length)
    (hq : (if sym then queue ++ queue else queue).length = (missingPlies ss ssIni).length) :
    ∃ r, isEqualStack ss queue ssIni sym = .ok r ∧
      (r = true ↔ (∀ k, k < ss.length → ss.getD k 0 ≠ 666 → ss.getD k 0 = ssIni.getD k 0) ∧
        (if sym then queue ++ queue else queue).Perm (missingPlies ss ssIni)) := by
  have hlen : (ss.filter (fun x => x != 666)).length = (((ss.zip ssIni).filter (fun x => x.1 != 666)).map (fun x => x.2)).length := by
    clear hq
    induction ss generalizing ssIni with
    | nil => simp
    | cons x t ih =>
      cases ssIni with
      | nil => simp at hl
      | cons y s =>
        have := ih s (by simpa using hl)
        by_cases hx : x = 666
        · subst hx; simpa using this
        · simp [hx]
          simpa using this
  unfold isEqualStack maskOf
  rw [if_pos hl, if_pos hl]
  simp only [bind, Except.bind]
  unfold iscloseAll
  rw [if_pos hlen, maskOf_eq_filter ss ssIni hl]
  simp only
  by_cases hk : ∀ k, k < ss.length → ss.getD k 0 ≠ 666 → ss.getD k 0 = ssIni.getD k 0
  · rw [decide_eq_true hk]
    have hq' : ((if sym then queue ++ queue else queue).insertionSort (· ≤ ·)).length =
        ((((ss.zip ssIni).filter (fun x => x.1 == 666)).map (fun x => x.2)).insertionSort (· ≤ ·)).length := by
      rw [List.length_insertionSort, List.length_insertionSort]
      exact hq
    simp only [Bool.not_true, Bool.false_eq_true, if_false]
    rw [if_pos hq']
    refine ⟨_, rfl, ?_⟩
    rw [decide_eq_true_eq, insertionSort_eq_iff]
    exact ⟨fun h => ⟨hk, h⟩, fun h => h.2⟩
  · rw [decide_eq_false hk]
    exact ⟨false, rfl, by simp only [Bool.false_eq_true, false_iff]; exact fun h => hk h.1⟩

/-- C82: when one ply is missing, `is_equal` accepts every queue made of that ply, whatever its length: also the empty queue. -/
theorem C82_is_equal_violation (ss queue ssIni : Stack) (a : Int) (hl : ss.length = ssIni.length)
    (hk : ∀ k, k < ss.length → ss.getD k 0 ≠ 666 → ss.getD k 0 = ssIni.getD k 0)
    (hm : missingPlies ss ssIni = [a]) (hq : ∀ x ∈ queue, x = a) : isEqualStack ss queue ssIni false = .ok true := by
  have hlen : (ss.filter (fun x => x != 666)) = (((ss.zip ssIni).filter (fun x => x.1 != 666)).map (fun x => x.2)) := by
    have := maskOf_eq_filter ss ssIni hl
    rw [decide_eq_decide] at this
    exact this.2 hk
  unfold isEqualStack maskOf
  rw [if_pos hl, if_pos hl]
  simp only [bind, Except.bind]
  unfold iscloseAll
  rw [← hlen, if_pos rfl]
  simp only [decide_true, Bool.not_true, Bool.false_eq_true, if_false]
  have hm' : ((ss.zip ssIni).filter (fun x => x.1 == 666)).map (fun x => x.2) = [a] := hm
  rw [hm', show List.insertionSort (· ≤ ·) [a] = [a] from rfl]
  have hs : ∀ x ∈ queue.insertionSort (· ≤ ·), x = a := fun x hx => hq x ((List.perm_insertionSort _ queue).mem_iff.1 hx)
  have hall : (queue.insertionSort (· ≤ ·)).all (fun x => x == a) = true := by
    rw [List.all_eq_true]
    intro x hx
    simpa using hs x hx
  generalize queue.insertionSort (· ≤ ·) = q at hs hall
  by_cases h1 : q.length = [a].length
  · rw [if_pos h1]
    obtain ⟨x, rfl⟩ := List.length_eq_one_iff.1 h1
    rw [hs x (by simp)]
    simp
  · rw [if_neg h1]
    match q, hall, h1 with
    | [], _, _ => rfl
    | [x], _, h1 => simp at h1
    | x :: y :: q, hall, _ => exact congrArg _ hall

/-- Concrete cases. -/
example : calcDeltaAngle 75 (-75) = 30 ∧ calcDistanciation 2 40 none = .ok (9 / 10) ∧ calcDistanciation 18 40 (some 39) = .ok (9 / 10) := by
  decide +kernel
example : isEqualStack [45, 666, 0, 666] [90, -45] [45, -45, 0, 90] false = .ok true := by decide +kernel
example : isEqualStack [45, 666, 0, 90] [] [45, -45, 0, 90] false = .ok true ∧ missingPlies [45, 666, 0, 90] [45, -45, 0, 90] = [-45] := by
  decide +kernel
example : isEqualStack [45, 666, 666, 45] [0] [45, 0, 0, 45] true = .ok true := by decide +kernel

end Bella
