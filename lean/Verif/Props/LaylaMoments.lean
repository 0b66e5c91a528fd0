import Verif.Model.LaylaMoments
import Verif.Props.Moments
import Verif.Props.LevelWeights
import Verif.Props.Constraints
/-
C86: moments of area of LAYLA, weightings at the levels of its search, contributions of the plies.
-/
namespace Bella

namespace Spec86

/-- `z ^ p` with the sign of `z`. -/
def signedPow (p : Nat) (z : ℚ) : ℚ := z * |z| ^ (p - 1)

/-- Part of ply number `j` in the area (`p = 1`), the first (`p = 2`, distances to the mid-plane taken positive) or the second moment of
area (`p = 3`) of a laminate of `n` plies, the whole laminate being 1. -/
def part (p n j : Nat) : ℚ := (signedPow p (Spec.height n (j + 1)) - signedPow p (Spec.height n j)) / 2

/-- The plies designed after `k` levels of the search: for a symmetric laminate the `k` plies nearest to each face, for another
one plies are taken alternately from the bottom and from the top. -/
def designed (sym : Bool) (n k : Nat) : Finset Nat :=
  (Finset.range n).filter (fun (j : Nat) =>
    if sym then j < k ∨ n ≤ j + k else 2 * j < k ∨ 2 * n ≤ 2 * j + k)

/-- Area, first or second moment. -/
def moment (p : Nat) (m : Mom) : ℚ := if p = 1 then m.a else if p = 2 then m.b else m.d

end Spec86

open Spec86

theorem signedPow_cases (z : ℚ) : signedPow 1 z = z ∧ signedPow 2 z = sqSign z ∧ signedPow 3 z = z ^ 3 := by
  unfold signedPow sqSign
  refine ⟨by simp, by simp, ?_⟩
  rw [show 3 - 1 = 2 from rfl, sq_abs]
  ring

theorem part_eq (p n j : Nat) : part p n j = (signedPow p (posTop n j) - signedPow p (posBot n j)) / 2 := by
  unfold part
  rw [height_eq, height_eq, posTop_eq]

theorem signedPow_neg (p : Nat) (z : ℚ) : signedPow p (-z) = - signedPow p z := by
  unfold signedPow
  rw [abs_neg]
  ring

theorem part_mirror (p n j : Nat) (hj : j < n) : part p n (n - 1 - j) = part p n j := by
  unfold part
  rw [height_eq, height_eq, height_eq, height_eq, show n - 1 - j + 1 = n - j by omega,
    height_reflect n j (by omega) (by omega), show n - 1 - j = n - (j + 1) by omega,
    height_reflect n (j + 1) (by omega) (by omega), signedPow_neg, signedPow_neg]
  ring

/-! ### cumulated moments -/

theorem laylaCummul_append (ys : List ℚ) (x : ℚ) : ∀ (j : Nat) (acc : List ℚ),
    laylaCummul (ys ++ [x]) j acc = addFrom (laylaCummul ys j acc) (j + ys.length) x := by
  induction ys with
  | nil => intro j acc; rfl
  | cons y ys ih =>
    intro j acc
    show laylaCummul (ys ++ [x]) (j + 1) _ = _
    rw [ih]
    show _ = addFrom (laylaCummul ys (j + 1) _) _ _
    congr 1
    simp only [List.length_cons]
    omega

theorem laylaCummul_spec (xs : List ℚ) : ∀ (j : Nat) (acc : List ℚ),
    (laylaCummul xs j acc).length = acc.length ∧
    ∀ i, (laylaCummul xs j acc)[i]? = acc[i]?.map (fun a => a + (xs.take (i + 1 - j)).sum) := by
  induction xs with
  | nil =>
    intro j acc
    refine ⟨rfl, fun i => ?_⟩
    show acc[i]? = _
    cases acc[i]? <;> simp
  | cons x xs ih =>
    intro j acc
    obtain ⟨h1, h2⟩ := ih (j + 1) (addFrom acc j x)
    refine ⟨by show (laylaCummul xs (j + 1) _).length = _; rw [h1, addFrom_length], fun i => ?_⟩
    show (laylaCummul xs (j + 1) _)[i]? = _
    rw [h2, addFrom_getElem?]
    by_cases hij : j ≤ i
    · rw [show i + 1 - j = (i + 1 - (j + 1)) + 1 by omega, List.take_succ_cons, List.sum_cons]
      cases acc[i]? with
      | none => simp
      | some a => simp [hij]; ring
    · rw [show i + 1 - (j + 1) = 0 by omega, show i + 1 - j = 0 by omega]
      cases acc[i]? with
      | none => simp
      | some a => simp [hij]

/-! ### moments of the groups -/

/-- State of the loop after the plies `X`. -/
structure GroupInv (sizes : List Nat) (X : List ℚ) (ind cnt : Nat) (part : ℚ) (acc : List ℚ) : Prop where
  pos : X.length = (sizes.take ind).sum + cnt
  le : ind ≤ sizes.length
  small : ∀ s, sizes[ind]? = some s → cnt < s
  fin : ind = sizes.length → cnt = 0
  len : acc.length = sizes.length
  done : ∀ g ≤ ind, (acc.take g).sum = (X.take ((sizes.take g).sum)).sum
  zero : ∀ i, ind ≤ i → i < sizes.length → acc[i]? = some 0
  rest : part = (X.drop ((sizes.take ind).sum)).sum

theorem take_sum_mono (l : List Nat) (a b : Nat) (h : a ≤ b) : (l.take a).sum ≤ (l.take b).sum := by
  obtain ⟨c, rfl⟩ := Nat.exists_eq_add_of_le h
  rw [List.take_add, List.sum_append]
  omega

theorem take_sum_le (l : List Nat) (a : Nat) : (l.take a).sum ≤ l.sum := by
  have := take_sum_mono l a (max a l.length) (by omega)
  rwa [List.take_of_length_le (show l.length ≤ max a l.length by omega)] at this

theorem take_succ_sum (l : List Nat) (i s : Nat) (h : l[i]? = some s) : (l.take (i + 1)).sum = (l.take i).sum + s := by
  rw [List.take_add_one, h, List.sum_append]
  simp

theorem groupInv_step {sizes : List Nat} {X : List ℚ} {ind cnt : Nat} {part : ℚ} {acc : List ℚ}
    (hp : ∀ s ∈ sizes, 0 < s) (I : GroupInv sizes X ind cnt part acc) (x : ℚ) (s : Nat) (hs : sizes[ind]? = some s) :
    (cnt + 1 = s → GroupInv sizes (X ++ [x]) (ind + 1) 0 0 (acc.set ind (part + x))) ∧
    (cnt + 1 ≠ s → GroupInv sizes (X ++ [x]) ind (cnt + 1) (part + x) acc) := by
  have hil : ind < sizes.length := (List.getElem?_eq_some_iff.1 hs).1
  have hlt := I.small s hs
  have h1 := take_succ_sum sizes ind s hs
  constructor
  · intro he
    have htot : (X ++ [x]).length = (sizes.take (ind + 1)).sum := by
      rw [List.length_append, I.pos, h1]
      simp only [List.length_cons, List.length_nil]
      omega
    refine ⟨by rw [htot]; rfl, hil, ?_, fun _ => rfl, by rw [List.length_set, I.len], ?_, ?_, ?_⟩
    · intro s' hs'
      exact hp s' (List.mem_of_getElem? hs')
    · intro g hg
      rcases Nat.lt_or_ge ind g with hgi | hgi
      · have : g = ind + 1 := by omega
        subst this
        rw [← htot, List.take_length, List.sum_append, List.take_add_one, List.sum_append]
        have hset : (acc.set ind (part + x)).take ind = acc.take ind := by
          rw [List.take_set_of_le (Nat.le_refl _)]
        rw [hset, I.done ind (Nat.le_refl _), List.getElem?_set_self (by rw [I.len]; exact hil)]
        simp only [Option.toList_some, List.sum_cons, List.sum_nil, add_zero]
        rw [I.rest, ← add_assoc, List.sum_take_add_sum_drop]
      · have hset : (acc.set ind (part + x)).take g = acc.take g := by
          rw [List.take_set_of_le hgi]
        rw [hset, I.done g hgi, List.take_append_of_le_length]
        rw [I.pos]
        have := take_sum_mono sizes g ind hgi
        omega
    · intro i hi hi2
      rw [List.getElem?_set_ne (by omega)]
      exact I.zero i (by omega) hi2
    · rw [← htot, List.drop_length]
      rfl
  · intro he
    refine ⟨?_, I.le, ?_, ?_, I.len, ?_, I.zero, ?_⟩
    · rw [List.length_append, I.pos]
      simp only [List.length_cons, List.length_nil]
      omega
    · intro s' hs'
      rw [hs] at hs'
      cases hs'
      omega
    · intro h
      omega
    · intro g hg
      rw [I.done g hg, List.take_append_of_le_length]
      rw [I.pos]
      have := take_sum_mono sizes g ind hg
      omega
    · rw [I.rest, List.drop_append_of_le_length (by rw [I.pos]; omega), List.sum_append]
      simp

theorem laylaGroupLoop_inv {sizes : List Nat} (hp : ∀ s ∈ sizes, 0 < s) (xs : List ℚ) :
    ∀ (X : List ℚ) (ind cnt : Nat) (part : ℚ) (acc : List ℚ), GroupInv sizes X ind cnt part acc →
      X.length + xs.length ≤ sizes.sum →
      ∃ acc' part', laylaGroupLoop sizes xs ind cnt part acc = .ok (acc', part') ∧
        ∃ ind' cnt', GroupInv sizes (X ++ xs) ind' cnt' part' acc' := by
  induction xs with
  | nil =>
    intro X ind cnt part acc I _
    exact ⟨acc, part, rfl, ind, cnt, by rw [List.append_nil]; exact I⟩
  | cons x xs ih =>
    intro X ind cnt part acc I hl
    simp only [List.length_cons] at hl
    have hil : ind < sizes.length := by
      rcases Nat.lt_or_ge ind sizes.length with h | h
      · exact h
      · have he : ind = sizes.length := Nat.le_antisymm I.le h
        have := I.pos
        rw [I.fin he, he, List.take_length] at this
        omega
    have hs : sizes[ind]? = some sizes[ind] := List.getElem?_eq_getElem hil
    obtain ⟨s1, s2⟩ := groupInv_step hp I x _ hs
    have hg : pyGet sizes ind = .ok sizes[ind] := by unfold pyGet; rw [hs]
    by_cases he : cnt + 1 = sizes[ind]
    · obtain ⟨acc', part', h1, i', c', h2⟩ := ih _ _ _ _ _ (s1 he) (by simp; omega)
      refine ⟨acc', part', ?_, i', c', by rw [List.append_assoc] at h2; exact h2⟩
      show (do
        let s ← pyGet sizes ind
        if cnt + 1 = s then laylaGroupLoop sizes xs (ind + 1) 0 0 (acc.set ind (part + x))
        else laylaGroupLoop sizes xs ind (cnt + 1) (part + x) acc) = _
      rw [hg]
      simp only [bind, Except.bind]
      rw [if_pos he, h1]
    · obtain ⟨acc', part', h1, i', c', h2⟩ := ih _ _ _ _ _ (s2 he) (by simp; omega)
      refine ⟨acc', part', ?_, i', c', by rw [List.append_assoc] at h2; exact h2⟩
      show (do
        let s ← pyGet sizes ind
        if cnt + 1 = s then laylaGroupLoop sizes xs (ind + 1) 0 0 (acc.set ind (part + x))
        else laylaGroupLoop sizes xs ind (cnt + 1) (part + x) acc) = _
      rw [hg]
      simp only [bind, Except.bind]
      rw [if_neg he, h1]

theorem groupInv_init (sizes : List Nat) (hp : ∀ s ∈ sizes, 0 < s) : GroupInv sizes [] 0 0 0 (List.replicate sizes.length 0) := by
  refine ⟨rfl, Nat.zero_le _, fun s hs => hp s (List.mem_of_getElem? hs), fun _ => rfl, by simp, ?_, ?_, rfl⟩
  · intro g hg
    have : g = 0 := by omega
    subst this
    rfl
  · intro i _ hi
    rw [List.getElem?_replicate, if_pos hi]

/-- The sums of the moments of the first groups, all plies distributed. -/
theorem groups_all {sizes : List Nat} (hp : ∀ s ∈ sizes, 0 < s) (xs : List ℚ) (hl : xs.length = sizes.sum) :
    ∃ acc part, laylaGroupLoop sizes xs 0 0 0 (List.replicate sizes.length 0) = .ok (acc, part) ∧ acc.length = sizes.length ∧
      ∀ g ≤ sizes.length, (acc.take g).sum = (xs.take ((sizes.take g).sum)).sum := by
  obtain ⟨acc, part, h, ind, cnt, I⟩ := laylaGroupLoop_inv hp xs [] 0 0 0 _ (groupInv_init sizes hp) (by simp; omega)
  rw [List.nil_append] at I
  have hil : ind = sizes.length := by
    by_contra hne
    have hlt : ind < sizes.length := by have := I.le; omega
    have hs : sizes[ind]? = some sizes[ind] := List.getElem?_eq_getElem hlt
    have h1 := I.small _ hs
    have h2 := take_succ_sum sizes ind _ hs
    have h3 := take_sum_le sizes (ind + 1)
    have h4 := I.pos
    omega
  exact ⟨acc, part, h, I.len, fun g hg => I.done g (by omega)⟩

/-- The same when the last ply is added afterwards. -/
theorem groups_last {sizes : List Nat} (hp : ∀ s ∈ sizes, 0 < s) (ys : List ℚ) (x : ℚ) (hl : ys.length + 1 = sizes.sum) :
    ∃ acc part, laylaGroupLoop sizes ys 0 0 0 (List.replicate sizes.length 0) = .ok (acc, part) ∧ sizes.length ≠ 0 ∧
      (addFrom acc (sizes.length - 1) (part + x)).length = sizes.length ∧
      ∀ g ≤ sizes.length, ((addFrom acc (sizes.length - 1) (part + x)).take g).sum
        = ((ys ++ [x]).take ((sizes.take g).sum)).sum := by
  obtain ⟨acc, part, h, ind, cnt, I⟩ := laylaGroupLoop_inv hp ys [] 0 0 0 _ (groupInv_init sizes hp) (by simp; omega)
  rw [List.nil_append] at I
  have hne : sizes.length ≠ 0 := by
    intro h0
    rw [List.length_eq_zero_iff.1 h0] at hl
    simp at hl
  have hpos := I.pos
  have hlt : ind < sizes.length := by
    rcases Nat.lt_or_ge ind sizes.length with h | h
    · exact h
    · have he : ind = sizes.length := Nat.le_antisymm I.le h
      rw [I.fin he, he, List.take_length] at hpos
      omega
  have hs : sizes[ind]? = some sizes[ind] := List.getElem?_eq_getElem hlt
  have h1 := I.small _ hs
  have h2 := take_succ_sum sizes ind _ hs
  have hil : ind + 1 = sizes.length := by
    by_contra hne
    have hlt2 : ind + 1 < sizes.length := by omega
    have hs2 : sizes[ind + 1]? = some sizes[ind + 1] := List.getElem?_eq_getElem hlt2
    have h3 := take_succ_sum sizes (ind + 1) _ hs2
    have h4 := take_sum_le sizes (ind + 1 + 1)
    have h5 := hp _ (List.mem_of_getElem? hs2)
    omega
  have htot : (sizes.take (ind + 1)).sum = sizes.sum := by rw [hil, List.take_length]
  obtain ⟨s1, _⟩ := groupInv_step hp I x _ hs
  have J := s1 (by omega)
  have hadd : addFrom acc (sizes.length - 1) (part + x) = acc.set ind (part + x) := by
    rw [show sizes.length - 1 = ind by omega]
    have hz := I.zero ind (Nat.le_refl _) hlt
    have hlen := I.len
    apply List.ext_getElem?
    intro i
    rw [addFrom_getElem?]
    by_cases hi : i = ind
    · subst hi
      rw [List.getElem?_set_self (by omega), hz]
      simp
    · rw [List.getElem?_set_ne (by omega)]
      rcases Nat.lt_or_ge i ind with h3 | h3
      · cases acc[i]? with
        | none => simp
        | some a => simp [show ¬ ind ≤ i by omega]
      · rw [List.getElem?_eq_none (by omega)]
        simp
  refine ⟨acc, part, h, hne, by rw [hadd]; exact J.len, fun g hg => ?_⟩
  rw [hadd]
  exact J.done g (by omega)

/-! ### the positive moments of the plies -/

/-- Positive moment of order `p` of the ply or pair of plies designed at level `k`. -/
def levelPart (sym : Bool) (p n k : Nat) : ℚ := ∑ j ∈ designed sym n (k + 1), part p n j - ∑ j ∈ designed sym n k, part p n j

theorem designed_asym_step (n k : Nat) (hk : k < n) :
    designed false n (k + 1) = insert (if k % 2 = 0 then k / 2 else n - 1 - k / 2) (designed false n k) ∧
    (if k % 2 = 0 then k / 2 else n - 1 - k / 2) ∉ designed false n k := by
  unfold designed
  constructor
  · ext j
    simp only [Finset.mem_filter, Finset.mem_range, Finset.mem_insert, Bool.false_eq_true, if_false]
    split <;> omega
  · simp only [Finset.mem_filter, Finset.mem_range, Bool.false_eq_true, if_false]
    split <;> omega

theorem designed_sym_step (n k : Nat) (hk : k < halfUp n) :
    designed true n (k + 1) = insert k (insert (n - 1 - k) (designed true n k)) ∧
    k ∉ designed true n k ∧ n - 1 - k ∉ designed true n k := by
  unfold halfUp at hk
  unfold designed
  refine ⟨?_, ?_, ?_⟩
  · ext j
    simp only [Finset.mem_filter, Finset.mem_range, Finset.mem_insert, if_true]
    omega
  · simp only [Finset.mem_filter, Finset.mem_range, if_true]
    omega
  · simp only [Finset.mem_filter, Finset.mem_range, if_true]
    omega

theorem levelPart_asym (p n k : Nat) (hk : k < n) :
    levelPart false p n k = part p n (if k % 2 = 0 then k / 2 else n - 1 - k / 2) := by
  obtain ⟨h1, h2⟩ := designed_asym_step n k hk
  unfold levelPart
  rw [h1, Finset.sum_insert h2]
  ring

theorem levelPart_sym (p n k : Nat) (hn : 0 < n) (hk : k < halfUp n) :
    levelPart true p n k = signedPow p (posTopSym n k) - signedPow p (posBot n k) := by
  obtain ⟨h1, h2, h3⟩ := designed_sym_step n k hk
  have hm := part_mirror p n k (by unfold halfUp at hk; omega)
  unfold levelPart
  rw [h1]
  have h0 : signedPow p 0 = 0 := by unfold signedPow; simp
  by_cases he : k = n - 1 - k
  · rw [← he, Finset.insert_eq_of_mem (Finset.mem_insert_self _ _), Finset.sum_insert h2, part_eq]
    have e1 : posTopSym n k = 0 := by
      unfold posTopSym
      rw [if_pos]
      unfold halfUp
      omega
    have e2 : posTop n k = - posBot n k := by
      rw [posTop_eq, ← height_reflect n k hn (by omega)]
      congr 1
      omega
    rw [e1, e2, signedPow_neg, h0]
    ring
  · rw [Finset.sum_insert (by simp only [Finset.mem_insert, not_or]; exact ⟨he, h2⟩), Finset.sum_insert h3, hm, part_eq]
    have e1 : posTopSym n k = posTop n k := by
      unfold posTopSym
      rw [if_neg]
      unfold halfUp
      omega
    rw [e1]
    ring

theorem designed_zero (sym : Bool) (n : Nat) : designed sym n 0 = ∅ := by
  unfold designed
  ext j
  simp only [Finset.mem_filter, Finset.mem_range, Finset.notMem_empty, iff_false]
  cases sym <;> simp

theorem levelPart_sum (sym : Bool) (p n m : Nat) :
    ((List.range m).map (levelPart sym p n)).sum = ∑ j ∈ designed sym n m, part p n j := by
  have := sum_telescope (fun i => ∑ j ∈ designed sym n i, part p n j) m
  simp only [designed_zero, Finset.sum_empty, sub_zero] at this
  rw [← this]
  rfl

theorem moment_abs_sym (n i p : Nat) (hn : 0 < n) (hi : i < halfUp n) (hp : p = 1 ∨ p = 2 ∨ p = 3) :
    |moment p ⟨posTopSym n i - posBot n i, posTopSym n i ^ 2 - posBot n i ^ 2, posTopSym n i ^ 3 - posBot n i ^ 3⟩|
      = signedPow p (posTopSym n i) - signedPow p (posBot n i) := by
  obtain ⟨t1, t2, t3⟩ := signedPow_cases (posTopSym n i)
  obtain ⟨b1, b2, b3⟩ := signedPow_cases (posBot n i)
  obtain ⟨h1, h2⟩ := posBot_sym_lt n i hn hi
  rcases hp with rfl | rfl | rfl
  · rw [t1, b1]
    show |posTopSym n i - posBot n i| = _
    exact abs_of_pos (by linarith)
  · rw [t2, b2]
    exact plus_sym_first n i hn hi
  · rw [t3, b3]
    show |posTopSym n i ^ 3 - posBot n i ^ 3| = _
    exact abs_of_pos (by linarith [cube_lt _ _ h1])

theorem moment_abs_asym (n i p : Nat) (hn : 0 < n) (hi : 0 ≤ posTop n i * posBot n i) (hp : p = 1 ∨ p = 2 ∨ p = 3) :
    |moment p ⟨(posTop n i - posBot n i) / 2, (posTop n i ^ 2 - posBot n i ^ 2) / 2, (posTop n i ^ 3 - posBot n i ^ 3) / 2⟩|
      = part p n i := by
  obtain ⟨t1, t2, t3⟩ := signedPow_cases (posTop n i)
  obtain ⟨b1, b2, b3⟩ := signedPow_cases (posBot n i)
  have h := plus_asym_entry n i hn
  rw [if_pos hi] at h
  simp only [Mom.mk.injEq] at h
  have e2 : |(2 : ℚ)| = 2 := abs_of_pos (by norm_num)
  rw [part_eq]
  rcases hp with rfl | rfl | rfl
  · have e : ∀ x y z : ℚ, moment 1 ⟨x, y, z⟩ = x := fun _ _ _ => rfl
    rw [e, t1, b1, abs_div, e2, ← h.1]
  · have e : ∀ x y z : ℚ, moment 2 ⟨x, y, z⟩ = y := fun _ _ _ => rfl
    rw [e, t2, b2, abs_div, e2, ← h.2.1]
  · have e : ∀ x y z : ℚ, moment 3 ⟨x, y, z⟩ = z := fun _ _ _ => rfl
    rw [e, t3, b3, abs_div, e2, ← h.2.2]

/-- The last ply optimised touches or contains the mid-plane, the others do not cross it. -/
theorem order_side (n k : Nat) (hk : k + 1 < n) :
    0 ≤ posTop n (if k % 2 = 0 then k / 2 else n - 1 - k / 2) * posBot n (if k % 2 = 0 then k / 2 else n - 1 - k / 2) := by
  have hq : (0 : ℚ) < n := by
    have : 0 < n := by omega
    exact_mod_cast this
  have hb : ∀ i : Nat, 2 * (i + 1) ≤ n ∨ n ≤ 2 * i → 0 ≤ posTop n i * posBot n i := by
    intro i hi
    have e1 : posTop n i = (2 * ((i : ℚ) + 1) - n) / n := by unfold posTop; field_simp
    have e2 : posBot n i = (2 * (i : ℚ) - n) / n := by unfold posBot; field_simp
    rw [e1, e2, div_mul_div_comm]
    apply div_nonneg _ (by positivity)
    rcases hi with h | h
    · have : (2 : ℚ) * (i + 1) ≤ n := by exact_mod_cast h
      nlinarith
    · have : (n : ℚ) ≤ 2 * i := by exact_mod_cast h
      nlinarith
  apply hb
  split <;> omega

theorem last_part (n p : Nat) (hn : 0 < n) (hp : p = 1 ∨ p = 2 ∨ p = 3) :
    moment p (laylaLastMom n (if (n - 1) % 2 = 0 then (n - 1) / 2 else n - 1 - (n - 1) / 2))
      = part p n (if (n - 1) % 2 = 0 then (n - 1) / 2 else n - 1 - (n - 1) / 2) := by
  have hq : (0 : ℚ) < n := by exact_mod_cast hn
  generalize hj : (if (n - 1) % 2 = 0 then (n - 1) / 2 else n - 1 - (n - 1) / 2) = j
  have h1 : 2 * j ≤ n ∧ n < 2 * (j + 1) := by
    rw [← hj]
    split <;> omega
  have hb : posBot n j ≤ 0 := by
    have e2 : posBot n j = (2 * (j : ℚ) - n) / n := by unfold posBot; field_simp
    rw [e2]
    apply div_nonpos_of_nonpos_of_nonneg _ hq.le
    have : (2 : ℚ) * j ≤ n := by exact_mod_cast h1.1
    linarith
  have ht : 0 < posTop n j := by
    have e1 : posTop n j = (2 * ((j : ℚ) + 1) - n) / n := by unfold posTop; field_simp
    rw [e1]
    apply div_pos _ hq
    have : (n : ℚ) < 2 * (j + 1) := by exact_mod_cast h1.2
    linarith
  rw [part_eq]
  obtain ⟨t1, t2, t3⟩ := signedPow_cases (posTop n j)
  obtain ⟨b1, b2, b3⟩ := signedPow_cases (posBot n j)
  have a1 := abs_of_pos ht
  have a2 := abs_of_nonpos hb
  rcases hp with rfl | rfl | rfl
  · rw [t1, b1]
    show (|posTop n j| + |posBot n j|) / 2 = _
    rw [a1, a2]; ring
  · rw [t2, b2]
    show (|posTop n j ^ 2| + |posBot n j ^ 2|) / 2 = _
    unfold sqSign
    rw [abs_pow, abs_pow, a1, a2]; ring
  · rw [t3, b3]
    show (|posTop n j ^ 3| + |posBot n j ^ 3|) / 2 = _
    rw [abs_pow, abs_pow, a1, a2]; ring

theorem designed_all (sym : Bool) (n : Nat) : designed sym n (searched sym n) = Finset.range n := by
  unfold designed searched
  ext j
  simp only [Finset.mem_filter, Finset.mem_range, and_iff_left_iff_imp]
  intro hj
  cases sym
  · simp only [Bool.false_eq_true, if_false]; omega
  · simp only [if_true]; unfold halfUp; omega

theorem symList (n p : Nat) (hn : 0 < n) (hp : p = 1 ∨ p = 2 ∨ p = 3) :
    (laylaMoms true n).map (fun (m : Mom) => |moment p m|) = (List.range (halfUp n)).map (levelPart true p n) := by
  unfold laylaMoms
  rw [if_pos rfl, List.map_map]
  apply List.map_congr_left
  intro i hi
  have hi := List.mem_range.1 hi
  rw [levelPart_sym p n i hn hi]
  exact moment_abs_sym n i p hn hi hp

theorem asymList (n p : Nat) (hn : 0 < n) (hp : p = 1 ∨ p = 2 ∨ p = 3) :
    (laylaMoms false n).dropLast.map (fun (m : Mom) => |moment p m|) = (List.range (n - 1)).map (levelPart false p n) := by
  have hlen := calcPlyOrder_asym_length n
  apply List.ext_getElem?
  intro i
  by_cases hi : i < n - 1
  · have hg := calcPlyOrder_asym_getElem n i (by omega)
    unfold laylaMoms
    rw [if_neg (by simp), List.getElem?_map, List.getElem?_dropLast, List.length_map, hlen, if_pos hi, List.getElem?_map, hg,
      List.getElem?_map, List.getElem?_range hi, Option.map_some, Option.map_some, Option.map_some, Option.some.injEq,
      levelPart_asym p n i (by omega)]
    exact moment_abs_asym n _ p hn (order_side n i (by omega)) hp
  · rw [List.getElem?_eq_none, List.getElem?_eq_none]
    · simp; omega
    · unfold laylaMoms
      simp [hlen]
      omega

/-- C86: with the plies distributed among groups of at least one ply, the cumulated moments at a level of LAYLA's search are those of
the plies designed so far, and those of the first groups the moments of the plies in them; for the area, the first and the second
moment. -/
theorem C86_cumulated (sym : Bool) (n : Nat) (hn : 0 < n) (sizes : List Nat) (hpos : ∀ s ∈ sizes, 0 < s)
    (hsum : sizes.sum = searched sym n) (p : Nat) (hp : p = 1 ∨ p = 2 ∨ p = 3) :
    ∃ cum groups, laylaAreas sym n sizes (moment p) = .ok (cum, groups) ∧ cum.length = searched sym n ∧
      (∀ k, k < searched sym n → cum[k]? = some (∑ j ∈ designed sym n (k + 1), part p n j)) ∧ groups.length = sizes.length ∧
      ∀ g, g ≤ sizes.length → (groups.take g).sum = ∑ j ∈ designed sym n ((sizes.take g).sum), part p n j := by
  have htake : ∀ m t, t ≤ m → (((List.range m).map (levelPart sym p n)).take t).sum = ∑ j ∈ designed sym n t, part p n j := by
    intro m t ht
    rw [← List.map_take, List.take_range, Nat.min_eq_left ht, levelPart_sum]
  cases sym with
  | true =>
    have hs : sizes.sum = halfUp n := hsum
    obtain ⟨acc, rest, h1, h2, h3⟩ := groups_all hpos ((List.range (halfUp n)).map (levelPart true p n)) (by simp [hs])
    obtain ⟨c1, c2⟩ := laylaCummul_spec ((List.range (halfUp n)).map (levelPart true p n)) 0 (List.replicate (halfUp n) 0)
    refine ⟨laylaCummul ((List.range (halfUp n)).map (levelPart true p n)) 0 (List.replicate (halfUp n) 0), acc, ?_,
      by rw [c1]; simp [searched], ?_, h2, ?_⟩
    · unfold laylaAreas laylaAreasSym
      rw [if_neg (by omega), if_pos rfl]
      dsimp only
      rw [symList n p hn hp, h1]
      rfl
    · intro k hk
      have hk : k < halfUp n := hk
      rw [c2, List.getElem?_replicate, if_pos hk, Option.map_some, Nat.sub_zero, htake _ _ hk, zero_add]
    · intro g hg
      rw [h3 g hg, htake]
      have := take_sum_le sizes g
      omega
  | false =>
    have hs : sizes.sum = n := hsum
    have hx : levelPart false p n (n - 1) = moment p (laylaLastMom n (if (n - 1) % 2 = 0 then (n - 1) / 2 else n - 1 - (n - 1) / 2)) := by
      rw [last_part n p hn hp, levelPart_asym p n (n - 1) (by omega)]
    have hrange : (List.range (n - 1)).map (levelPart false p n) ++ [levelPart false p n (n - 1)]
        = (List.range n).map (levelPart false p n) := by
      conv_rhs => rw [show n = n - 1 + 1 by omega, List.range_succ, List.map_append]
      rw [show n - 1 + 1 = n by omega]
      rfl
    obtain ⟨acc, rest, h1, hne, h2, h3⟩ := groups_last hpos ((List.range (n - 1)).map (levelPart false p n))
      (levelPart false p n (n - 1)) (by simp; omega)
    obtain ⟨c1, c2⟩ := laylaCummul_spec ((List.range n).map (levelPart false p n)) 0 (List.replicate n 0)
    have hcum : addFrom (laylaCummul ((List.range (n - 1)).map (levelPart false p n)) 0 (List.replicate n 0)) (n - 1)
        (levelPart false p n (n - 1)) = laylaCummul ((List.range n).map (levelPart false p n)) 0 (List.replicate n 0) := by
      rw [← hrange, laylaCummul_append]
      simp
    refine ⟨laylaCummul ((List.range n).map (levelPart false p n)) 0 (List.replicate n 0),
      addFrom acc (sizes.length - 1) (rest + levelPart false p n (n - 1)), ?_, by rw [c1]; simp [searched], ?_, h2, ?_⟩
    · unfold laylaAreas laylaAreasAsym
      rw [if_neg (by omega), if_neg (by simp)]
      dsimp only
      have hget : pyGet (calcPlyOrder false n) (n - 1) = .ok (if (n - 1) % 2 = 0 then (n - 1) / 2 else n - 1 - (n - 1) / 2) := by
        unfold pyGet
        rw [calcPlyOrder_asym_getElem n (n - 1) (by omega)]
      rw [asymList n p hn hp, h1, hget]
      simp only [bind, Except.bind, pure, Except.pure]
      rw [if_neg hne, ← hx, hcum]
    · intro k hk
      have hk : k < n := hk
      rw [c2, List.getElem?_replicate, if_pos hk, Option.map_some, Nat.sub_zero, htake _ _ hk, zero_add]
    · intro g hg
      rw [h3 g hg, hrange, htake]
      have := take_sum_le sizes g
      omega

/-- C86: the parts of the plies are positive and add up to 1, and after the last level of the search all plies are designed; each
level adds one ply (two for a symmetric laminate, the middle ply alone). -/
theorem C86_whole (sym : Bool) (n : Nat) (hn : 0 < n) (p : Nat) (hp : p = 1 ∨ p = 2 ∨ p = 3) :
    (∀ j, 0 < part p n j) ∧ ∑ j ∈ Finset.range n, part p n j = 1 ∧ designed sym n (searched sym n) = Finset.range n ∧
      ∀ k, k < searched sym n → designed sym n k ⊂ designed sym n (k + 1) := by
  refine ⟨?_, ?_, designed_all sym n, ?_⟩
  · intro j
    have h1 := posBot_lt n j hn
    obtain ⟨t1, t2, t3⟩ := signedPow_cases (posTop n j)
    obtain ⟨b1, b2, b3⟩ := signedPow_cases (posBot n j)
    rw [part_eq]
    rcases hp with rfl | rfl | rfl
    · rw [t1, b1]; linarith
    · rw [t2, b2]; linarith [sqSign_lt _ _ h1]
    · rw [t3, b3]; linarith [cube_lt _ _ h1]
  · rw [← list_sum_range]
    have : (List.range n).map (fun i => part p n i)
        = (List.range n).map (fun i => signedPow p (posBot n (i + 1)) / 2 - signedPow p (posBot n i) / 2) := by
      apply List.map_congr_left
      intro i _
      rw [part_eq, posTop_eq]
      ring
    rw [this, sum_telescope (fun i => signedPow p (posBot n i) / 2), posBot_n n hn, posBot_zero, signedPow_neg]
    unfold signedPow
    norm_num
  · intro k hk
    rw [Finset.ssubset_iff]
    cases sym with
    | false =>
      obtain ⟨h1, h2⟩ := designed_asym_step n k hk
      exact ⟨_, h2, by rw [h1]⟩
    | true =>
      obtain ⟨h1, h2, _⟩ := designed_sym_step n k hk
      refine ⟨k, h2, ?_⟩
      rw [h1]
      exact Finset.insert_subset_insert _ (Finset.subset_insert _ _)

/-! ### weightings -/

/-- The order of the moment that scales the weighting number `i`: area for the four in-plane, first moment for the four coupling,
second moment for the four out-of-plane parameters. -/
def Spec86.order (i : Nat) : Nat := if i < 4 then 1 else if i < 8 then 2 else 3

theorem order_cases (i : Nat) : Spec86.order i = 1 ∨ Spec86.order i = 2 ∨ Spec86.order i = 3 := by
  unfold Spec86.order
  split
  · exact Or.inl rfl
  · split
    · exact Or.inr (Or.inl rfl)
    · exact Or.inr (Or.inr rfl)

theorem designed_pos (sym : Bool) (n k p : Nat) (hn : 0 < n) (hk : k < searched sym n) (hp : p = 1 ∨ p = 2 ∨ p = 3) :
    0 < ∑ j ∈ designed sym n (k + 1), part p n j := by
  obtain ⟨h1, _, _, h4⟩ := C86_whole sym n hn p hp
  have h := h4 k hk
  apply Finset.sum_pos (fun j _ => h1 j)
  rw [Finset.nonempty_iff_ne_empty]
  intro h0
  rw [h0] at h
  exact (Finset.not_ssubset_empty _) h

theorem weightTable_spec (sym : Bool) (n : Nat) (hn : 0 < n) (sizes : List Nat) (hpos : ∀ s ∈ sizes, 0 < s)
    (hsum : sizes.sum = searched sym n) (w : List ℚ) :
    laylaWeightTable sym n sizes w = .ok ((List.range (searched sym n)).map (fun (k : Nat) =>
      laylaLevelWeights w ⟨∑ j ∈ designed sym n (k + 1), part 1 n j, ∑ j ∈ designed sym n (k + 1), part 2 n j,
        ∑ j ∈ designed sym n (k + 1), part 3 n j⟩)) := by
  obtain ⟨a, ga, a1, a2, a3, _⟩ := C86_cumulated sym n hn sizes hpos hsum 1 (by simp)
  obtain ⟨b, gb, b1, b2, b3, _⟩ := C86_cumulated sym n hn sizes hpos hsum 2 (by simp)
  obtain ⟨d, gd, d1, d2, d3, _⟩ := C86_cumulated sym n hn sizes hpos hsum 3 (by simp)
  have e1 : (moment 1) = Mom.a := rfl
  have e2 : (moment 2) = Mom.b := rfl
  have e3 : (moment 3) = Mom.d := rfl
  rw [e1] at a1
  rw [e2] at b1
  rw [e3] at d1
  unfold laylaWeightTable
  simp only [a1, b1, d1, bind, Except.bind, pure, Except.pure, a2]
  congr 1
  apply List.map_congr_left
  intro k hk
  have hk := List.mem_range.1 hk
  simp only [List.getD_eq_getElem?_getD, a3 k hk, b3 k hk, d3 k hk, Option.getD_some]

/-- C86: if the final weightings are not negative and one of them is positive, the weightings at each level of LAYLA's search are twelve
non-negative numbers that add up to 1, proportional to the final weightings times the moments of the plies designed so far (areas for the
in-plane, first moments for the coupling, second moments for the out-of-plane parameters); at the last level they are the final
weightings divided by their sum.  If all final weightings are zero none of the weightings is a number. -/
theorem C86_weights (sym : Bool) (n : Nat) (hn : 0 < n) (sizes : List Nat) (hpos : ∀ s ∈ sizes, 0 < s)
    (hsum : sizes.sum = searched sym n) (w : List ℚ) (hw : w.length = 12) (hnn : ∀ x ∈ w, 0 ≤ x) :
    ∃ t, laylaWeightTable sym n sizes w = .ok t ∧ t.length = searched sym n ∧
      ((∀ x ∈ w, x = 0) → ∀ v ∈ t, v = List.replicate 12 none) ∧
      ((∃ x ∈ w, 0 < x) → ∀ k, k < searched sym n → ∃ v : List ℚ, t[k]? = some (v.map some) ∧ v.length = 12 ∧ (∀ x ∈ v, 0 ≤ x) ∧
        v.sum = 1 ∧ (∃ S : ℚ, 0 < S ∧ ∀ i, i < 12 →
          v.getD i 0 * S = w.getD i 0 * ∑ j ∈ designed sym n (k + 1), part (Spec86.order i) n j) ∧
        (k + 1 = searched sym n → ∀ i, i < 12 → v.getD i 0 * w.sum = w.getD i 0)) := by
  refine ⟨_, weightTable_spec sym n hn sizes hpos hsum w, by simp, ?_, ?_⟩
  · intro h0 v hv
    obtain ⟨k, _, rfl⟩ := List.mem_map.1 hv
    have e : w = List.replicate 12 0 := List.eq_replicate_iff.2 ⟨hw, h0⟩
    subst e
    unfold laylaLevelWeights
    have hx : ∀ f : Nat → ℚ, (List.replicate 12 (0 : ℚ)).mapIdx (fun (i : Nat) (y : ℚ) => y * f i) = List.replicate 12 0 := by
      intro f
      apply List.ext_getElem
      · simp
      · intro i _ _
        simp
    dsimp only
    rw [hx]
    simp
  · intro hex k hk
    set m : Mom := ⟨∑ j ∈ designed sym n (k + 1), part 1 n j, ∑ j ∈ designed sym n (k + 1), part 2 n j,
        ∑ j ∈ designed sym n (k + 1), part 3 n j⟩ with hm
    have hf : ∀ i, m.factor i = ∑ j ∈ designed sym n (k + 1), part (Spec86.order i) n j := by
      intro i
      unfold Mom.factor Spec86.order
      split
      · rfl
      · split <;> rfl
    have hfp : ∀ i, 0 < m.factor i := fun i => by rw [hf]; exact designed_pos sym n k _ hn hk (order_cases i)
    set x := w.mapIdx (fun (i : Nat) (y : ℚ) => y * m.factor i) with hx
    have hxl : x.length = 12 := by rw [hx]; simpa using hw
    have hxd : ∀ i, x.getD i 0 = w.getD i 0 * m.factor i := fun i => mapIdx_getD w m.factor i
    have hwd : ∀ i, 0 ≤ w.getD i 0 := by
      intro i
      rw [List.getD_eq_getElem?_getD]
      cases h : w[i]? with
      | none => simp
      | some x => simpa using hnn x (List.mem_of_getElem? h)
    have hxn : ∀ y ∈ x, 0 ≤ y := by
      intro y hy
      obtain ⟨i, hi, rfl⟩ := List.getElem_of_mem hy
      have := hxd i
      rw [List.getD_eq_getElem?_getD, List.getElem?_eq_getElem hi, Option.getD_some] at this
      rw [this]
      exact mul_nonneg (hwd i) (hfp i).le
    have hS : 0 < x.sum := by
      obtain ⟨y, hy, hy0⟩ := hex
      obtain ⟨i, hi, rfl⟩ := List.getElem_of_mem hy
      have hmem : x.getD i 0 ∈ x := by
        rw [List.getD_eq_getElem?_getD, List.getElem?_eq_getElem (by omega)]
        exact List.getElem_mem _
      have h1 := List.single_le_sum hxn _ hmem
      rw [hxd i] at h1
      have h2 : w.getD i 0 = w[i] := by rw [List.getD_eq_getElem?_getD, List.getElem?_eq_getElem hi]; rfl
      rw [h2] at h1
      have := mul_pos hy0 (hfp i)
      linarith
    have hv : laylaLevelWeights w m = (x.map (fun (y : ℚ) => y / x.sum)).map some := by
      have : laylaLevelWeights w m = x.map (fun (y : ℚ) => if x.sum = 0 then none else some (y / x.sum)) := rfl
      rw [this, List.map_map]
      apply List.map_congr_left
      intro y _
      rw [if_neg hS.ne']
      rfl
    have hget : ∀ i, i < 12 → (x.map (fun (y : ℚ) => y / x.sum)).getD i 0 * x.sum = w.getD i 0 * m.factor i := by
      intro i hi
      rw [← hxd i]
      simp only [List.getD_eq_getElem?_getD, List.getElem?_map, List.getElem?_eq_getElem (show i < x.length by omega),
        Option.map_some, Option.getD_some]
      rw [div_mul_cancel₀ _ hS.ne']
    refine ⟨x.map (fun (y : ℚ) => y / x.sum), ?_, by simpa using hxl, ?_, ?_, ⟨x.sum, hS, fun i hi => by rw [hget i hi, hf]⟩, ?_⟩
    · rw [List.getElem?_map, List.getElem?_range hk, Option.map_some, ← hm, hv]
    · intro y hy
      obtain ⟨z, hz, rfl⟩ := List.mem_map.1 hy
      exact div_nonneg (hxn z hz) hS.le
    · have : ∀ l : List ℚ, (l.map (fun (y : ℚ) => y / x.sum)).sum = l.sum / x.sum := by
        intro l
        induction l with
        | nil => simp
        | cons a t ih => rw [List.map_cons, List.sum_cons, List.sum_cons, ih, add_div]
      rw [this, div_self hS.ne']
    · intro hk1 i hi
      have h1 : ∀ i, m.factor i = 1 := by
        intro i
        obtain ⟨_, h2, h3, _⟩ := C86_whole sym n hn (Spec86.order i) (order_cases i)
        rw [hf, hk1, h3, h2]
      have hxw : x = w := by
        rw [hx]
        apply List.ext_getElem
        · simp
        · intro i _ _
          simp [h1]
      have := hget i hi
      rw [h1, mul_one] at this
      rw [← hxw] at this ⊢
      exact this

/-! ### contributions of the plies -/

theorem laylaDelta_sym (n : Nat) (x : ℚ) (i : Nat) (hi : i < halfUp n) :
    laylaDelta true n x i = .ok (deltaLampam true n (momAreas true n (calcPlyOrder true n)) i x) := by
  unfold laylaDelta pyGet laylaMoms
  rw [if_pos rfl, List.getElem?_map, List.getElem?_range hi, deltaLampam_sym n i hi]
  rfl

theorem laylaDelta_asym (n : Nat) (x : ℚ) (i : Nat) (hi : i < n) :
    laylaDelta false n x i = .ok (deltaLampam false n (momAreas false n (calcPlyOrder false n)) i x) := by
  have h : laylaMoms false n = momAreas false n (calcPlyOrder false n) := by
    unfold laylaMoms momAreas
    rw [if_neg (by simp), if_neg (by simp)]
  have hlen : (momAreas false n (calcPlyOrder false n)).length = n := by
    unfold momAreas
    rw [if_neg (by simp), List.length_map, calcPlyOrder_asym_length]
  unfold laylaDelta pyGet deltaLampam
  rw [h, List.getElem?_eq_getElem (by omega)]
  simp only [List.getD_eq_getElem?_getD, List.getElem?_eq_getElem (show i < (momAreas false n (calcPlyOrder false n)).length by omega)]
  simp [bind, Except.bind, pure, Except.pure]

/-- C86: for a symmetric laminate the contributions of the plies at the levels of LAYLA's search add up to the lamination
parameters of the laminate, which has no coupling. -/
theorem C86_contributions_symmetric (n : Nat) (hn : 0 < n) (ss : Stack) (hl : ss.length = n) (hs : ss.reverse = ss) (c : Int → ℚ) :
    ∃ parts, (calcPlyOrder true n).mapM (fun (l : Nat) => laylaDelta true n (c (ss.getD l 0)) l) = .ok parts ∧
      (parts.map (fun r => r.1)).sum = Spec.lampamA c ss ∧ (parts.map (fun r => r.2.1)).sum = Spec.lampamB c ss ∧
      (parts.map (fun r => r.2.2)).sum = Spec.lampamD c ss ∧ Spec.lampamB c ss = 0 := by
  refine ⟨_, mapM_ok _ (fun (l : Nat) => deltaLampam true n (momAreas true n (calcPlyOrder true n)) l (c (ss.getD l 0))) _ ?_,
    C50_symmetric n hn ss hl hs c⟩
  intro l hl
  exact laylaDelta_sym n _ l (List.mem_range.1 hl)

/-- C86: for another laminate the search takes for ply number `l` the contribution of level `l`, which is that of the ply optimised at
position `l`: the contributions add up to the lamination parameters of the laminate whose ply optimised at position `l` is ply number `l` of
the design. -/
theorem C86_contributions_asymmetric (n : Nat) (ss tt : Stack) (hl : tt.length = n)
    (ht : ∀ l j, (calcPlyOrder false n)[l]? = some j → tt.getD j 0 = ss.getD l 0) (c : Int → ℚ) :
    ∃ parts, (calcPlyOrder false n).mapM (fun (l : Nat) => laylaDelta false n (c (ss.getD l 0)) l) = .ok parts ∧
      (parts.map (fun r => r.1)).sum = Spec.lampamA c tt ∧ (parts.map (fun r => r.2.1)).sum = Spec.lampamB c tt ∧
      (parts.map (fun r => r.2.2)).sum = Spec.lampamD c tt := by
  have hperm := calcPlyOrder_asym_perm n
  refine ⟨_, mapM_ok _ (fun (l : Nat) => deltaLampam false n (momAreas false n (calcPlyOrder false n)) l (c (ss.getD l 0))) _ ?_, ?_⟩
  · intro l hl
    exact laylaDelta_asym n _ l (List.mem_range.1 (hperm.subset hl))
  · have e : ∀ g : ℚ × ℚ × ℚ → ℚ, (((calcPlyOrder false n).map (fun (l : Nat) =>
          deltaLampam false n (momAreas false n (calcPlyOrder false n)) l (c (ss.getD l 0)))).map g).sum
        = (((List.range n).map (fun i => deltaLampam false n (momAreas false n (calcPlyOrder false n)) i
          (c (tt.getD ((calcPlyOrder false n).getD i 0) 0)))).map g).sum := by
      intro g
      rw [((hperm.map _).map g).sum_eq]
      congr 2
      apply List.map_congr_left
      intro l hl
      have hl := List.mem_range.1 hl
      have hlen := calcPlyOrder_asym_length n
      have hg : (calcPlyOrder false n)[l]? = some ((calcPlyOrder false n).getD l 0) := by
        rw [List.getD_eq_getElem?_getD, List.getElem?_eq_getElem (by omega)]
        rfl
      rw [ht l _ hg]
    obtain ⟨h1, h2, h3⟩ := C50_asymmetric n tt hl c
    refine ⟨?_, ?_, ?_⟩
    · exact (e (fun r => r.1)).trans h1
    · exact (e (fun r => r.2.1)).trans h2
    · exact (e (fun r => r.2.2)).trans h3

/-- C86, violation: for every laminate that is not symmetric, of at least three plies, the search takes for the ply at the top (designed
second) the contribution of a ply next to the mid-plane: there are laminates for which the contributions do not add up to the
out-of-plane lamination parameters of the laminate. -/
theorem C86_asymmetric_violation (n : Nat) (hn : 3 ≤ n) : ∃ (ss : Stack) (c : Int → ℚ), ss.length = n ∧
    ∃ parts, (calcPlyOrder false n).mapM (fun (l : Nat) => laylaDelta false n (c (ss.getD l 0)) l) = .ok parts ∧
      (parts.map (fun r => r.2.2)).sum < Spec.lampamD c ss := by
  have hlen := calcPlyOrder_asym_length n
  have hperm := calcPlyOrder_asym_perm n
  let f : Nat → Stack := fun q => (List.range n).map (fun (i : Nat) => if i = q then (1 : Int) else 0)
  have hfl : ∀ q, (f q).length = n := fun q => by simp [f]
  have hf : ∀ q i, i < n → (f q).getD i 0 = if i = q then 1 else 0 := by
    intro q i hi
    simp [f, List.getD_eq_getElem?_getD, List.getElem?_range hi]
  let c : Int → ℚ := fun a => if a = 1 then 1 else 0
  let q := if (n - 1) % 2 = 0 then (n - 1) / 2 else n - 1 - (n - 1) / 2
  have hq : 2 * q ≤ n ∧ n < 2 * (q + 1) ∧ q < n := by
    simp only [q]
    split <;> omega
  -- the out-of-plane parameter of a laminate with one ply
  have hD : ∀ r, r < n → Spec.lampamD c (f r) = part 3 n r := by
    intro r hr
    unfold Spec.lampamD part
    rw [zipIdx_map_sum (f r) 0 (fun a i => c a * (Spec.height (f r).length (i + 1) ^ 3 - Spec.height (f r).length i ^ 3)), hfl,
      Finset.sum_eq_single r]
    · rw [hf r r hr, (signedPow_cases _).2.2, (signedPow_cases _).2.2]
      simp [c]
    · intro i hi hne
      rw [hf r i (Finset.mem_range.1 hi), if_neg hne]
      simp [c]
    · intro h
      exact absurd (Finset.mem_range.2 hr) h
  obtain ⟨parts, h1, _, _, h2⟩ := C86_contributions_asymmetric n (f (n - 1)) (f q) (hfl q) (by
    intro l j hlj
    have hl : l < n := by
      have := (List.getElem?_eq_some_iff.1 hlj).1
      omega
    have hg := calcPlyOrder_asym_getElem n l hl
    rw [hlj, Option.some.injEq] at hg
    have hj : j < n := by
      rw [hg]
      split <;> omega
    rw [hf q j hj, hf (n - 1) l hl]
    have : j = q ↔ l = n - 1 := by
      have hg2 := calcPlyOrder_asym_getElem n (n - 1) (by omega)
      constructor
      · intro he
        have hnd : (calcPlyOrder false n).Nodup := hperm.nodup_iff.2 List.nodup_range
        have e : (calcPlyOrder false n)[l]? = (calcPlyOrder false n)[n - 1]? := by
          rw [hlj, hg2, he]
        exact (List.getElem?_inj (by omega) hnd).1 e
      · intro he
        rw [hg, he]
    simp only [this]) c
  refine ⟨f (n - 1), c, hfl _, parts, h1, ?_⟩
  rw [h2, hD q hq.2.2, hD (n - 1) (by omega)]
  unfold part
  rw [(signedPow_cases _).2.2, (signedPow_cases _).2.2, (signedPow_cases _).2.2, (signedPow_cases _).2.2, height_eq, height_eq,
    height_eq, height_eq, show n - 1 + 1 = n by omega, posBot_n n (by omega)]
  have hnq : (3 : ℚ) ≤ n := by exact_mod_cast hn
  have hn0 : (n : ℚ) ≠ 0 := by linarith
  have e1 : posBot n (n - 1) = 1 - 2 / n := by
    unfold posBot
    rw [Nat.cast_sub (by omega)]
    field_simp
    push_cast
    ring
  have e2 : posBot n (q + 1) = posBot n q + 2 / n := by
    unfold posBot
    push_cast
    ring
  have hδ : (0 : ℚ) < 2 / n := by positivity
  have hδ1 : (2 : ℚ) / n ≤ 2 / 3 := div_le_div_of_nonneg_left (by norm_num) (by norm_num) hnq
  have hb : posBot n q ≤ 0 := by
    have e : posBot n q = (2 * (q : ℚ) - n) / n := by unfold posBot; field_simp
    rw [e]
    apply div_nonpos_of_nonpos_of_nonneg _ (by linarith)
    have : (2 : ℚ) * q ≤ n := by exact_mod_cast hq.1
    linarith
  have ht : 0 < posBot n (q + 1) := by
    have e : posBot n (q + 1) = (2 * ((q : ℚ) + 1) - n) / n := by unfold posBot; push_cast; field_simp
    rw [e]
    apply div_pos _ (by linarith)
    have : (n : ℚ) < 2 * (q + 1) := by exact_mod_cast hq.2.1
    linarith
  rw [e1, e2]
  rw [e2] at ht
  generalize posBot n q = b at *
  generalize (2 : ℚ) / n = d at *
  -- `0 ≤ -b ≤ d`: (b + d)^3 - b^3 ≤ d^3 < 1 - (1 - d)^3
  have k1 : (b + d) ^ 3 - b ^ 3 ≤ d ^ 3 := by nlinarith [mul_nonneg (mul_nonneg (neg_nonneg.2 hb) ht.le) hδ.le]
  have k2 : d ^ 3 < 1 ^ 3 - (1 - d) ^ 3 := by nlinarith [mul_pos hδ (show (0 : ℚ) < 1 - d by linarith)]
  linarith

/-- C86, violation: in the same laminates, the weightings that the search uses when two plies are designed are the final ones: the second ply
designed is the one at the top, number `n - 1`, and line `n - 1` of the table of weightings belongs to the complete laminate. -/
theorem C86_asymmetric_weights_violation (n : Nat) (hn : 3 ≤ n) (sizes : List Nat) (hpos : ∀ s ∈ sizes, 0 < s) (hsum : sizes.sum = n)
    (w : List ℚ) (hw : w.length = 12) (hnn : ∀ x ∈ w, 0 ≤ x) (h1 : w.sum = 1) :
    (calcPlyOrder false n)[1]? = some (n - 1) ∧
    ∃ t, laylaWeightTable false n sizes w = .ok t ∧ t[n - 1]? = some (w.map some) := by
  refine ⟨by rw [calcPlyOrder_asym_getElem n 1 (by omega)]; simp, ?_⟩
  obtain ⟨t, h, _, _, h2⟩ := C86_weights false n (by omega) sizes hpos hsum w hw hnn
  refine ⟨t, h, ?_⟩
  have hex : ∃ x ∈ w, 0 < x := by
    by_contra hc
    push Not at hc
    have : w.sum = 0 := List.sum_eq_zero (fun x hx => le_antisymm (hc x hx) (hnn x hx))
    rw [this] at h1
    norm_num at h1
  have hs : searched false n = n := rfl
  obtain ⟨v, v1, v2, _, _, _, v3⟩ := h2 hex (n - 1) (by rw [hs]; omega)
  have v3 := v3 (by rw [hs]; omega)
  rw [v1]
  have : v = w := by
    apply List.ext_getElem (by omega)
    intro i hi hi2
    have := v3 i (by omega)
    rw [h1, mul_one, List.getD_eq_getElem?_getD, List.getD_eq_getElem?_getD, List.getElem?_eq_getElem hi,
      List.getElem?_eq_getElem hi2] at this
    exact this
  rw [this]

/-- The hypotheses are met: symmetric laminate of 7 plies (four levels) in two groups, laminate of 5 plies in two groups. -/
example : ([2, 2] : List Nat).sum = searched true 7 ∧ ([2, 3] : List Nat).sum = searched false 5 ∧
    laylaAreas true 7 [2, 2] (moment 1) = .ok ([2 / 7, 4 / 7, 6 / 7, 1], [4 / 7, 3 / 7]) ∧
    laylaAreas false 5 [2, 3] (moment 1) = .ok ([1 / 5, 2 / 5, 3 / 5, 4 / 5, 1], [2 / 5, 3 / 5]) := by
  refine ⟨by decide, by decide, by decide +kernel, by decide +kernel⟩

example : designed true 7 2 = {0, 1, 5, 6} ∧ designed false 5 3 = {0, 1, 4} := by decide

end Bella
