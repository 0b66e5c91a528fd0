import Verif.Model.Repair10
import Verif.Spec.Layup
import Verif.Proofs.Groups
import Verif.Props.TenPercent
import Mathlib.Tactic.Linarith
import Mathlib.Tactic.Push
import Mathlib.Tactic.Ring
/-
C24: the minimum ply counts computed for the repair.
-/
namespace Spec

/-- Number of plies of a given angle per half of a symmetric laminate (a middle ply counts for one
half), or in the whole laminate otherwise. -/
def perHalf (sym : Bool) (ss : List ℤ) (a : ℤ) : ℚ :=
  if sym then (ss.count a : ℚ) / 2 else ss.count a

/-- The middle ply, if there is one, is a 0 or a 90 ply. -/
def Middle0or90 (ss : List ℤ) : Prop :=
  ss.length % 2 = 1 → ss[ss.length / 2]? = some 0 ∨ ss[ss.length / 2]? = some 90

end Spec

namespace Bella

/-- A symmetric laminate is its first half, its middle ply if any, and the mirrored half. -/
theorem symmetric_split (ss : Stack) (h : Spec.Symmetric ss) :
    ss = ss.take (ss.length / 2) ++ (ss.drop (ss.length / 2)).take (ss.length % 2)
      ++ (ss.take (ss.length / 2)).reverse := by
  have h1 : (ss.take (ss.length / 2)).reverse = ss.drop (ss.length - ss.length / 2) := by
    have h2 := congrArg (List.drop (ss.length - ss.length / 2)) h
    rw [List.drop_reverse] at h2
    have h3 : ss.length - (ss.length - ss.length / 2) = ss.length / 2 := by omega
    rw [h3] at h2
    exact h2
  rw [h1]
  have h4 : ss.length - ss.length / 2 = ss.length / 2 + ss.length % 2 := by omega
  rw [h4, ← List.drop_drop, List.append_assoc, List.take_append_drop, List.take_append_drop]

/-- Counts in a symmetric laminate. -/
theorem symmetric_count (ss : Stack) (h : Spec.Symmetric ss) (a : Int) :
    ss.count a = 2 * (ss.take (ss.length / 2)).count a +
      ((ss.drop (ss.length / 2)).take (ss.length % 2)).count a := by
  conv_lhs => rw [symmetric_split ss h]
  rw [List.count_append, List.count_append, List.count_reverse]
  omega

theorem symmetric_count_even (ss : Stack) (h : Spec.Symmetric ss) (hm : Spec.Middle0or90 ss)
    (a : Int) (h0 : a ≠ 0) (h90 : a ≠ 90) :
    ss.count a = 2 * (ss.take (ss.length / 2)).count a := by
  rw [symmetric_count ss h]
  rcases Nat.mod_two_eq_zero_or_one ss.length with h2 | h2
  · simp [h2]
  · have h3 : ∃ b, ss[ss.length / 2]? = some b ∧ (b = 0 ∨ b = 90) := by
      rcases hm h2 with h4 | h4
      · exact ⟨_, h4, Or.inl rfl⟩
      · exact ⟨_, h4, Or.inr rfl⟩
    obtain ⟨b, hb, hb'⟩ := h3
    have h5 : (ss.drop (ss.length / 2)).take (ss.length % 2) = [b] := by
      rw [h2]
      rcases hd : ss.drop (ss.length / 2) with _ | ⟨x, t⟩
      · have := congrArg List.length hd
        simp at this
        omega
      · have h6 : (ss.drop (ss.length / 2))[0]? = some x := by rw [hd]; rfl
        rw [List.getElem?_drop, Nat.add_zero, hb] at h6
        simp only [Option.some.injEq] at h6
        rw [h6]
        rfl
    rw [h5]
    have h7 : List.count a [b] = 0 := by
      rw [List.count_eq_zero]
      simp only [List.mem_singleton]
      rcases hb' with rfl | rfl
      · exact h0
      · exact h90
    omega

/-- Minimum counts for the +45, -45 and combined directions reach the requested shares. -/
theorem mini45_iff (ipo : Bool) (a45 a135 a4 x y : Int) (hb : ipo = true → x = y) :
    (((if ipo then (ipoAdjust (max a45 a135) a4).1 else a45) ≤ x ∧
      (if ipo then (ipoAdjust (max a45 a135) a4).1 else a135) ≤ y ∧
      (if ipo then (ipoAdjust (max a45 a135) a4).2 else a4) ≤ x + y) ↔
      (a45 ≤ x ∧ a135 ≤ y ∧ a4 ≤ x + y)) := by
  cases ipo
  · simp
  · have := hb rfl
    subst this
    simp only [if_true, ipoAdjust]
    split_ifs <;> omega

/-- The same per half of a symmetric laminate. -/
theorem mini45_half_iff (ipo : Bool) (a45 a135 a4 x y : Int) (hb : ipo = true → x = y) :
    let b45 := if ipo then (ipoAdjust (max a45 a135) a4).1 else a45
    let b135 := if ipo then b45 else a135
    let b4 := if ipo then (ipoAdjust (max a45 a135) a4).2 else a4
    let h45 := ceilDiv b45 2
    let h135 := ceilDiv b135 2
    let h4 := ceilDiv b4 2
    (((if ipo then (ipoAdjust h45 h4).1 else h45) ≤ x ∧
      (if ipo then (ipoAdjust h45 h4).1 else h135) ≤ y ∧
      (if ipo then (ipoAdjust h45 h4).2 else h4) ≤ x + y) ↔
      (a45 ≤ 2 * x ∧ a135 ≤ 2 * y ∧ a4 ≤ 2 * (x + y))) := by
  cases ipo
  · simp only [Bool.false_eq_true, if_false, ceilDiv]
    omega
  · have := hb rfl
    subst this
    simp only [if_true, ipoAdjust, ceilDiv]
    split_ifs <;> omega

theorem ceil_le_nat (p : ℚ) (n k : Nat) : (⌈p * n⌉ : Int) ≤ (k : Int) ↔ p * n ≤ (k : ℚ) := by
  rw [Int.ceil_le]
  norm_num

/-- Asymmetric laminates: `n0`, `n90`, `n45`, `n135` plies. -/
theorem mini10Of_asym (ipo odd : Bool) (a0 a90 a45 a135 a4 : Int) (n0 n90 n45 n135 : Nat)
    (hb : ipo = true → n45 = n135) :
    (let m := mini10Of false ipo odd a0 a90 a45 a135 a4
     m.m0 ≤ (n0 : ℚ) ∧ m.m90 ≤ (n90 : ℚ) ∧ (m.m45 : ℚ) ≤ (n45 : ℚ) ∧ (m.m135 : ℚ) ≤ (n135 : ℚ) ∧
     (m.m45_135 : ℚ) ≤ (n45 : ℚ) + (n135 : ℚ)) ↔
    a0 ≤ n0 ∧ a90 ≤ n90 ∧ a45 ≤ n45 ∧ a135 ≤ n135 ∧ a4 ≤ (n45 : Int) + n135 := by
  have h := mini45_iff ipo a45 a135 a4 n45 n135 (by intro h; rw [hb h])
  have h0 : ((a0 : Int) : ℚ) ≤ (n0 : ℚ) ↔ a0 ≤ n0 := by exact_mod_cast Iff.rfl
  have h90 : ((a90 : Int) : ℚ) ≤ (n90 : ℚ) ↔ a90 ≤ n90 := by exact_mod_cast Iff.rfl
  rw [← h]
  simp only [mini10Of, Bool.false_eq_true, if_false]
  rw [h0, h90]
  have e2 : (if ipo = true then (if ipo = true then (ipoAdjust (max a45 a135) a4).1 else a45) else a135) =
      (if ipo = true then (ipoAdjust (max a45 a135) a4).1 else a135) := by
    cases ipo <;> simp
  rw [e2]
  generalize (if ipo = true then (ipoAdjust (max a45 a135) a4).1 else a45) = A
  generalize (if ipo = true then (ipoAdjust (max a45 a135) a4).1 else a135) = B
  generalize (if ipo = true then (ipoAdjust (max a45 a135) a4).2 else a4) = C
  have i1 : (A : ℚ) ≤ (n45 : ℚ) ↔ A ≤ n45 := by exact_mod_cast Iff.rfl
  have i2 : (B : ℚ) ≤ (n135 : ℚ) ↔ B ≤ n135 := by exact_mod_cast Iff.rfl
  have i3 : (C : ℚ) ≤ (n45 : ℚ) + (n135 : ℚ) ↔ C ≤ (n45 : Int) + n135 := by exact_mod_cast Iff.rfl
  rw [i1, i2, i3]

/-- Symmetric laminates: `n0`, `n90` plies in all, `x45`, `x135` per half. -/
theorem mini10Of_sym (ipo odd : Bool) (a0 a90 a45 a135 a4 : Int) (n0 n90 x45 x135 : Nat)
    (hb : ipo = true → x45 = x135) (h0 : odd = false → n0 % 2 = 0) (h90 : odd = false → n90 % 2 = 0) :
    (let m := mini10Of true ipo odd a0 a90 a45 a135 a4
     m.m0 ≤ (n0 : ℚ) / 2 ∧ m.m90 ≤ (n90 : ℚ) / 2 ∧ (m.m45 : ℚ) ≤ (x45 : ℚ) ∧ (m.m135 : ℚ) ≤ (x135 : ℚ) ∧
     (m.m45_135 : ℚ) ≤ (x45 : ℚ) + (x135 : ℚ)) ↔
    a0 ≤ n0 ∧ a90 ≤ n90 ∧ a45 ≤ 2 * x45 ∧ a135 ≤ 2 * x135 ∧ a4 ≤ 2 * ((x45 : Int) + x135) := by
  have h := mini45_half_iff ipo a45 a135 a4 x45 x135 (by intro h; rw [hb h])
  have hz : ∀ (a : Int) (k : Nat), (odd = false → k % 2 = 0) →
      ((if odd = true then (a : ℚ) / 2 else (ceilDiv a 2 : ℚ)) ≤ (k : ℚ) / 2 ↔ a ≤ (k : Int)) := by
    intro a k hk
    split_ifs with h2
    · rw [div_le_div_iff_of_pos_right (by norm_num)]
      exact_mod_cast Iff.rfl
    · obtain ⟨j, hj⟩ : ∃ j, k = 2 * j := ⟨k / 2, by have := hk (by simpa using h2); omega⟩
      subst hj
      have e : (((2 * j : Nat) : ℚ) / 2) = (j : ℚ) := by push_cast; ring
      rw [e]
      have e2 : (ceilDiv a 2 : ℚ) ≤ (j : ℚ) ↔ ceilDiv a 2 ≤ (j : Int) := by exact_mod_cast Iff.rfl
      rw [e2, ceilDiv_le_iff (by norm_num)]
      push_cast
      rw [mul_comm]
  have z0 := hz a0 n0 h0
  have z90 := hz a90 n90 h90
  have hl : ∀ (A : Int) (k : Nat), (A : ℚ) ≤ (k : ℚ) ↔ A ≤ (k : Int) := by
    intro A k; exact_mod_cast Iff.rfl
  have hl2 : ∀ (A : Int) (k l : Nat), (A : ℚ) ≤ (k : ℚ) + (l : ℚ) ↔ A ≤ (k : Int) + (l : Int) := by
    intro A k l; exact_mod_cast Iff.rfl
  dsimp only at h
  rw [← h]
  simp only [mini10Of, if_true]
  cases ipo
  · simp only [Bool.false_eq_true, if_false]
    rw [z0, z90, hl, hl, hl2]
  · simp only [if_true]
    rw [z0, z90, hl, hl, hl2]

/-- C24: the per-half ply counts of a laminate (symmetric with a 0 or 90 middle ply when symmetry is
required, balanced when balance is required) reach the minima of `calc_mini_10` exactly when the
laminate has the requested share of plies in each direction. -/
theorem C24_iff (c : Cons) (ss : Stack)
    (hs : c.sym = true → Spec.Symmetric ss ∧ Spec.Middle0or90 ss)
    (hb : c.ipo = true → Spec.Balanced ss) :
    (let m := calcMini10 c ss.length
     m.m0 ≤ Spec.perHalf c.sym ss 0 ∧ m.m90 ≤ Spec.perHalf c.sym ss 90 ∧
     (m.m45 : ℚ) ≤ Spec.perHalf c.sym ss 45 ∧ (m.m135 : ℚ) ≤ Spec.perHalf c.sym ss (-45) ∧
     (m.m45_135 : ℚ) ≤ Spec.perHalf c.sym ss 45 + Spec.perHalf c.sym ss (-45)) ↔
    Spec.MeetsShares c.shares 0 (ss.count 0) (ss.count 90) (ss.count 45) (ss.count (-45))
      ss.length := by
  have hb45 : c.ipo = true → ss.count 45 = ss.count (-45) := by
    intro h
    exact hb h 45 (by decide) (by decide) (by decide)
  have key : Spec.MeetsShares c.shares 0 (ss.count 0) (ss.count 90) (ss.count 45) (ss.count (-45))
      ss.length ↔
      (⌈c.p0 * ss.length⌉ : Int) ≤ (ss.count 0 : Nat) ∧ (⌈c.p90 * ss.length⌉ : Int) ≤ (ss.count 90 : Nat) ∧
      (⌈c.p45 * ss.length⌉ : Int) ≤ (ss.count 45 : Nat) ∧
        (⌈c.p135 * ss.length⌉ : Int) ≤ (ss.count (-45) : Nat) ∧
        (⌈c.p45_135 * ss.length⌉ : Int) ≤ ((ss.count 45 : Nat) : Int) + (ss.count (-45) : Nat) := by
    unfold Spec.MeetsShares Cons.shares
    rw [← Nat.cast_add (R := Int), ceil_le_nat, ceil_le_nat, ceil_le_nat, ceil_le_nat, ceil_le_nat,
      ← Nat.cast_add (R := ℚ)]
    simp only [zero_mul, add_zero]
  rw [key]
  unfold calcMini10 Spec.perHalf
  generalize (⌈c.p0 * ss.length⌉ : Int) = a0
  generalize (⌈c.p90 * ss.length⌉ : Int) = a90
  generalize (⌈c.p45 * ss.length⌉ : Int) = a45
  generalize (⌈c.p135 * ss.length⌉ : Int) = a135
  generalize (⌈c.p45_135 * ss.length⌉ : Int) = a4
  cases hsym : c.sym
  · simp only [Bool.false_eq_true, if_false]
    exact mini10Of_asym c.ipo _ a0 a90 a45 a135 a4 _ _ _ _ hb45
  · obtain ⟨hsy, hmid⟩ := hs hsym
    have c45 := symmetric_count_even ss hsy hmid 45 (by decide) (by decide)
    have c135 := symmetric_count_even ss hsy hmid (-45) (by decide) (by decide)
    have hev : ∀ a, (ss.length % 2 == 1) = false → ss.count a % 2 = 0 := by
      intro a h2
      have h3 : ss.length % 2 = 0 := by
        simp only [beq_eq_false_iff_ne] at h2; omega
      rw [symmetric_count ss hsy, h3]
      simp
    simp only [if_true]
    rw [c45, c135] at hb45 ⊢
    have h := mini10Of_sym c.ipo (ss.length % 2 == 1) a0 a90 a45 a135 a4 (ss.count 0) (ss.count 90)
      ((ss.take (ss.length / 2)).count 45) ((ss.take (ss.length / 2)).count (-45))
      (by intro h; have := hb45 h; omega) (hev 0) (hev 90)
    have e : ∀ k : Nat, ((2 * k : Nat) : ℚ) / 2 = (k : ℚ) := by intro k; push_cast; ring
    rw [e, e]
    refine h.trans ?_
    push_cast
    rw [mul_add]

/-- C24: with balance required, the minima for +45 and -45 are equal, and reaching them is enough for
the combined direction. -/
theorem C24_balanced (c : Cons) (n : Nat) (h : c.ipo = true) :
    (calcMini10 c n).m45 = (calcMini10 c n).m135 ∧
    (calcMini10 c n).m45_135 ≤ (calcMini10 c n).m45 + (calcMini10 c n).m135 := by
  unfold calcMini10 mini10Of
  simp only [h, if_true]
  split
  · refine ⟨rfl, ?_⟩
    simp only [ipoAdjust]
    split_ifs <;> omega
  · refine ⟨rfl, ?_⟩
    simp only [ipoAdjust]
    split_ifs <;> omega

end Bella
