import Verif.Model.DividePanels
import Verif.Spec.Groups
import Verif.Proofs.Monad
import Mathlib.Tactic.Ring
import Mathlib.Tactic.Linarith
import Mathlib.Tactic.NormNum
/-
Lemmas on the division into groups.
-/
namespace Bella
open Spec

theorem modify_append_cons {α : Type} (a : List α) (x : α) (b : List α) (f : α → α) :
    (a ++ x :: b).modify a.length f = a ++ f x :: b := by
  induction a with
  | nil => rfl
  | cons y a ih => simp [List.modify_succ_cons, ih]

theorem fillGroups_spec (N gmin gmax : Int) (g : Nat) (h2 : gmin ≤ gmax)
    (hg : 1 ≤ g) (hlo : g * gmin ≤ N) (hhi : N ≤ g * gmax) :
    (fillGroups N gmin gmax g).length = g ∧ Admissible gmin gmax N (fillGroups N gmin gmax g) := by
  -- the general shape
  have key : ∀ (full : Nat) (extra : Int), full ≤ g → 0 ≤ extra → extra ≤ gmax - gmin →
      (extra ≠ 0 → full < g) → g * gmin + full * (gmax - gmin) + extra = N →
      let sizes := (List.replicate g gmin).take (g - full) ++ List.replicate (g - (g - full)) gmax
      let r := if extra ≠ 0 then sizes.modify (g - full - 1) (· + extra) else sizes
      r.length = g ∧ Admissible gmin gmax N r := by
    intro full extra hf he hed hlt hsum
    have hgg : g - (g - full) = full := by omega
    have hsz : (List.replicate g gmin).take (g - full) ++ List.replicate (g - (g - full)) gmax
        = List.replicate (g - full) gmin ++ List.replicate full gmax := by
      rw [List.take_replicate, Nat.min_eq_left (Nat.sub_le _ _), hgg]
    simp only [hsz]
    by_cases hx : extra = 0
    · rw [if_neg (by simpa using hx)]
      refine ⟨by simp; omega, ?_, ?_⟩
      · intro s hs
        simp only [List.mem_append, List.mem_replicate] at hs
        omega
      · rw [List.sum_append, List.sum_replicate, List.sum_replicate]
        simp only [nsmul_eq_mul]
        push_cast [hf]
        rw [← hsum, hx]; ring
    · rw [if_pos (by simpa using hx)]
      have hlt' := hlt hx
      obtain ⟨m, hm⟩ : ∃ m, g - full = m + 1 := ⟨g - full - 1, by omega⟩
      have hr : List.replicate (g - full) gmin ++ List.replicate full gmax
          = List.replicate m gmin ++ gmin :: List.replicate full gmax := by
        rw [hm, List.replicate_succ']; simp
      have hidx : g - full - 1 = (List.replicate m gmin).length := by simp; omega
      rw [hr, hidx, modify_append_cons]
      refine ⟨by simp; omega, ?_, ?_⟩
      · intro s hs
        simp only [List.mem_append, List.mem_replicate, List.mem_cons] at hs
        omega
      · rw [List.sum_append, List.sum_cons, List.sum_replicate, List.sum_replicate]
        simp only [nsmul_eq_mul]
        have hm' : (m : Int) = g - full - 1 := by omega
        rw [hm', ← hsum]; ring
  unfold fillGroups
  simp only
  have hmul : (0 : Int) ≤ N - g * gmin := by omega
  have hup : N - g * gmin ≤ g * (gmax - gmin) := by
    have : (g : Int) * (gmax - gmin) = g * gmax - g * gmin := by ring
    omega
  by_cases hc : N - g * gmin ≥ gmax - gmin ∧ N - g * gmin ≠ 0
  · have hD : 0 < gmax - gmin := by
      rcases Nat.eq_zero_or_pos (gmax - gmin).toNat with h | h
      · exfalso
        have h0 : gmax - gmin = 0 := by omega
        rw [h0, Int.mul_zero] at hup
        omega
      · omega
    have hdm := Int.mul_ediv_add_emod (N - g * gmin) (gmax - gmin)
    have hmod := Int.emod_lt_of_pos (N - g * gmin) hD
    have hmod0 := Int.emod_nonneg (N - g * gmin) (by omega : gmax - gmin ≠ 0)
    have hq0 : 0 ≤ (N - g * gmin) / (gmax - gmin) := Int.ediv_nonneg hmul (by omega)
    have hqg : (N - g * gmin) / (gmax - gmin) ≤ g := by
      apply Int.le_of_lt_add_one
      rw [Int.ediv_lt_iff_lt_mul hD]
      have : ((g : Int) + 1) * (gmax - gmin) = g * (gmax - gmin) + (gmax - gmin) := by ring
      omega
    have hcast : (((N - g * gmin) / (gmax - gmin)).toNat : Int) = (N - g * gmin) / (gmax - gmin) :=
      Int.toNat_of_nonneg hq0
    have hk := key ((N - g * gmin) / (gmax - gmin)).toNat ((N - g * gmin) % (gmax - gmin))
      (by omega) hmod0 (by omega) ?_ ?_
    · simp only [if_pos hc]; exact hk
    · intro hne
      by_contra hnl
      have hq : (N - g * gmin) / (gmax - gmin) = g := by omega
      rw [hq, Int.mul_comm] at hdm
      omega
    · rw [hcast]
      have : (N - g * gmin) / (gmax - gmin) * (gmax - gmin)
        = (gmax - gmin) * ((N - g * gmin) / (gmax - gmin)) := Int.mul_comm _ _
      omega
  · have hk := key 0 (N - g * gmin) (by omega) hmul (by omega) (by omega) (by push_cast; omega)
    simp only [if_neg hc]
    exact hk

theorem admissible_bounds {gmin gmax N : Int} {l : List Int} (h : Admissible gmin gmax N l) :
    l.length * gmin ≤ N ∧ N ≤ l.length * gmax := by
  obtain ⟨hb, hs⟩ := h
  subst hs
  induction l with
  | nil => simp
  | cons a l ih =>
    have h1 := hb a (by simp)
    have h2 := ih (fun s hs => hb s (by simp [hs]))
    rw [List.sum_cons, List.length_cons]
    push_cast
    rw [Int.add_mul, Int.add_mul]
    omega

theorem ceilDiv_le_iff {a b c : Int} (hb : 0 < b) : ceilDiv a b ≤ c ↔ a ≤ c * b := by
  unfold ceilDiv
  have h := Int.le_ediv_iff_mul_le (a := -c) (b := -a) hb
  rw [Int.neg_mul] at h
  omega

theorem le_div_iff' {a b c : Int} (hb : 0 < b) : c ≤ a / b ↔ c * b ≤ a := Int.le_ediv_iff_mul_le hb

/-- `partitionSizes` for a positive number of plies. -/
theorem partitionSizes_pos (N gmin gmax : Int) (h1 : 1 ≤ gmin) (h2 : gmin ≤ gmax) (hN : 1 ≤ N) :
    partitionSizes N gmin gmax =
      if ceilDiv N gmax > N / gmin then .error (.exc "PartitioningError")
      else .ok (fillGroups N gmin gmax (ceilDiv N gmax).toNat) := by
  unfold partitionSizes
  simp only
  split
  · rfl
  · rename_i hle
    have hpos : 1 ≤ ceilDiv N gmax := by
      by_contra h
      have : ceilDiv N gmax ≤ 0 := by omega
      rw [ceilDiv_le_iff (by omega)] at this
      omega
    obtain ⟨k, hk⟩ : ∃ k, (N / gmin + 1 - ceilDiv N gmax).toNat = k + 1 :=
      ⟨(N / gmin + 1 - ceilDiv N gmax).toNat - 1, by omega⟩
    rw [hk, List.range_succ_eq_map, List.map_cons]
    have hm : ceilDiv N gmax * gmin ≤ N := by
      rw [← le_div_iff' (by omega)]; omega
    unfold groupLoop
    have e0 : ceilDiv N gmax + ((0 : Nat) : Int) = ceilDiv N gmax := by simp
    rw [e0]
    rw [if_neg, if_neg, if_neg]
    · omega
    · omega
    · have : (gmax - gmin) * ceilDiv N gmax = ceilDiv N gmax * gmax - ceilDiv N gmax * gmin := by ring
      omega

theorem partitionSizes_nonpos (N gmin gmax : Int) (h1 : 1 ≤ gmin) (h2 : gmin ≤ gmax) (hN : N ≤ 0)
    (l : List Int) : partitionSizes N gmin gmax ≠ .ok l := by
  unfold partitionSizes
  simp only
  split
  · simp
  · rename_i hle
    have hneg : ceilDiv N gmax ≤ 0 := by
      rw [ceilDiv_le_iff (by omega)]; omega
    have hmax : N / gmin ≤ 0 := by
      by_contra h
      have : 1 ≤ N / gmin := by omega
      rw [le_div_iff' (by omega)] at this
      omega
    have hm : ceilDiv N gmax * gmin ≤ N := by
      rw [← le_div_iff' (by omega)]; omega
    obtain ⟨k, hk⟩ : ∃ k, (N / gmin + 1 - ceilDiv N gmax).toNat = k + 1 :=
      ⟨(N / gmin + 1 - ceilDiv N gmax).toNat - 1, by omega⟩
    rw [hk, List.range_succ_eq_map, List.map_cons]
    have e0 : ceilDiv N gmax + ((0 : Nat) : Int) = ceilDiv N gmax := by simp
    rw [e0]
    rcases Int.lt_or_eq_of_le hneg with hlt | heq
    · unfold groupLoop
      rw [if_neg, if_neg, if_pos hlt]
      · simp
      · omega
      · have : (gmax - gmin) * ceilDiv N gmax = ceilDiv N gmax * gmax - ceilDiv N gmax * gmin := by ring
        omega
    · -- no group at all: the only candidate is skipped
      have hk0 : k = 0 := by omega
      rw [hk0, heq]
      simp [groupLoop]

/-- Characterisation of the successful partitions. -/
theorem partitionSizes_ok (N gmin gmax : Int) (h1 : 1 ≤ gmin) (h2 : gmin ≤ gmax) (l : List Int)
    (h : partitionSizes N gmin gmax = .ok l) :
    1 ≤ N ∧ l ≠ [] ∧ Admissible gmin gmax N l ∧
      ∀ l', Admissible gmin gmax N l' → l.length ≤ l'.length := by
  have hN : 1 ≤ N := by
    by_contra hn
    exact partitionSizes_nonpos N gmin gmax h1 h2 (by omega) l h
  rw [partitionSizes_pos N gmin gmax h1 h2 hN] at h
  split at h
  · simp at h
  · rename_i hle
    simp only [Except.ok.injEq] at h
    have hpos : 1 ≤ ceilDiv N gmax := by
      by_contra h
      have : ceilDiv N gmax ≤ 0 := by omega
      rw [ceilDiv_le_iff (by omega)] at this
      omega
    have hc : ((ceilDiv N gmax).toNat : Int) = ceilDiv N gmax := Int.toNat_of_nonneg (by omega)
    have hs := fillGroups_spec N gmin gmax (ceilDiv N gmax).toNat h2 (by omega)
      (by rw [hc, ← le_div_iff' (by omega)]; omega)
      (by rw [hc, ← ceilDiv_le_iff (by omega)])
    rw [h] at hs
    refine ⟨hN, ?_, hs.2, ?_⟩
    · intro h0
      rw [h0] at hs
      simp at hs
      omega
    · intro l' hl'
      have hb := admissible_bounds hl'
      have : ceilDiv N gmax ≤ l'.length := by
        rw [ceilDiv_le_iff (by omega)]; exact hb.2
      rw [hs.1]
      omega

theorem partitionSizes_exists (N gmin gmax : Int) (h1 : 1 ≤ gmin) (h2 : gmin ≤ gmax)
    (l' : List Int) (hne : l' ≠ []) (ha : Admissible gmin gmax N l') :
    ∃ l, partitionSizes N gmin gmax = .ok l := by
  have hb := admissible_bounds ha
  have hlen : 1 ≤ l'.length := by
    rcases l' with _ | ⟨a, l'⟩
    · simp at hne
    · simp
  have hN : 1 ≤ N := by
    have : (1 : Int) * 1 ≤ l'.length * gmin := Int.mul_le_mul (by omega) h1 (by omega) (by omega)
    omega
  rw [partitionSizes_pos N gmin gmax h1 h2 hN, if_neg]
  · exact ⟨_, rfl⟩
  · have hle : ceilDiv N gmax ≤ l'.length := by
      rw [ceilDiv_le_iff (by omega)]; exact hb.2
    have hge : (l'.length : Int) ≤ N / gmin := by
      rw [le_div_iff' (by omega)]; exact hb.1
    omega

/-! ### Positions of the groups -/

theorem cumulPos_length (a : Int) (l : List Int) : (cumulPos a l).length = l.length := by
  induction l generalizing a with
  | nil => rfl
  | cons s l ih => simp [cumulPos, ih]

theorem cumulPos_get (a : Int) (l : List Int) (i : Nat) (p : Int) (h : (cumulPos a l)[i]? = some p) :
    p = a + (l.take i).sum := by
  induction l generalizing a i with
  | nil => simp [cumulPos] at h
  | cons s l ih =>
    cases i with
    | zero => simp [cumulPos] at h; simp [h]
    | succ i =>
      simp only [cumulPos, List.getElem?_cons_succ] at h
      rw [ih _ _ h, List.take_succ_cons, List.sum_cons]; omega

theorem cumulPos_holding (a : Int) (l : List Int) (hl : ∀ s ∈ l, 0 ≤ s) (p : Int) :
    groupsHolding (cumulPos a l) l p = if a ≤ p ∧ p < a + l.sum then 1 else 0 := by
  unfold groupsHolding
  induction l generalizing a with
  | nil => simp [cumulPos]
  | cons s l ih =>
    have hs := hl s (by simp)
    have hn : 0 ≤ l.sum := List.sum_nonneg (fun x hx => hl x (by simp [hx]))
    rw [cumulPos, List.zip_cons_cons, List.countP_cons, ih _ (fun x hx => hl x (by simp [hx])),
      List.sum_cons]
    by_cases h1 : a ≤ p ∧ p < a + s
    · have hd : decide (a ≤ p ∧ p < a + s) = true := by simpa using h1
      rw [if_neg (by omega), if_pos hd, if_pos (by omega)]
    · have hd : ¬ decide (a ≤ p ∧ p < a + s) = true := by simpa using h1
      rw [if_neg hd]
      by_cases h2 : a + s ≤ p ∧ p < a + s + l.sum
      · rw [if_pos h2, if_pos (by omega)]
      · rw [if_neg h2, if_neg (by omega)]

theorem evens_odds_length {α : Type} (l : List α) :
    (evens l).length + (odds l).length = l.length ∧
      (evens l).length = (odds l).length + l.length % 2 := by
  induction l using evens.induct with
  | case1 => simp [evens, odds]
  | case2 a => simp [evens, odds]
  | case3 a b l ih => simp only [evens, odds, List.length_cons]; omega

theorem zip_interleave_perm {α β : Type} (l : List β) (A B : List α)
    (hA : A.length = (evens l).length) (hB : B.length = (odds l).length) :
    ((interleave A B).zip l).Perm (A.zip (evens l) ++ B.zip (odds l)) := by
  induction l using evens.induct generalizing A B with
  | case1 => simp [evens, odds]
  | case2 a =>
    simp only [evens, odds, List.length_cons, List.length_nil, Nat.zero_add, List.length_eq_zero_iff] at hA hB
    obtain ⟨x, rfl⟩ := List.length_eq_one_iff.mp hA
    subst hB
    simp [interleave, evens, odds]
  | case3 a b l ih =>
    rcases A with _ | ⟨x, A⟩
    · simp [evens] at hA
    rcases B with _ | ⟨y, B⟩
    · simp [odds] at hB
    simp only [interleave, evens, odds, List.zip_cons_cons, List.cons_append]
    refine List.Perm.cons _ ?_
    refine ((ih A B ?_ ?_).cons _).trans ?_
    · simpa [evens] using hA
    · simpa [odds] using hB
    · exact List.perm_middle.symm

theorem zip_reverse {α β : Type} (a : List α) (b : List β) (h : a.length = b.length) :
    a.reverse.zip b.reverse = (a.zip b).reverse := by
  induction a generalizing b with
  | nil => simp
  | cons x a ih =>
    rcases b with _ | ⟨y, b⟩
    · simp at h
    · simp only [List.length_cons, Nat.add_right_cancel_iff] at h
      rw [List.reverse_cons, List.reverse_cons, List.zip_append (by simpa using h), ih b h]
      simp

theorem firstPlies_length (sym : Bool) (a : Int) (l : List Int) :
    (firstPlies sym a l).length = l.length := by
  unfold firstPlies
  split
  · exact cumulPos_length a l
  · have hp : ∀ {α : Type} (A B : List α), (interleave A B).length = A.length + B.length := by
      intro α A B
      induction A, B using interleave.induct with
      | case1 b => simp [interleave]
      | case2 x a => simp [interleave]
      | case3 x a y b ih => simp [interleave, ih]; omega
    have h := evens_odds_length l
    rw [hp, List.length_reverse, List.length_take, List.length_drop, cumulPos_length,
      List.length_append, List.length_reverse]
    omega

theorem sum_evens_odds (l : List Int) : (evens l).sum + (odds l).sum = l.sum := by
  induction l using evens.induct with
  | case1 => simp [evens, odds]
  | case2 a => simp [evens, odds]
  | case3 a b l ih => simp only [evens, odds, List.sum_cons]; omega

theorem mem_evens_odds {α : Type} (l : List α) (x : α) : x ∈ evens l ∨ x ∈ odds l ↔ x ∈ l := by
  induction l using evens.induct with
  | case1 => simp [evens, odds]
  | case2 a => simp [evens, odds]
  | case3 a b l ih => simp only [evens, odds, List.mem_cons, ← ih]; tauto

/-- Every ply lies in exactly one group. -/
theorem firstPlies_holding (sym : Bool) (a : Int) (l : List Int) (hl : ∀ s ∈ l, 0 ≤ s) (p : Int) :
    groupsHolding (firstPlies sym a l) l p = if a ≤ p ∧ p < a + l.sum then 1 else 0 := by
  unfold firstPlies
  split
  · exact cumulPos_holding a l hl p
  · simp only
    set order := evens l ++ (odds l).reverse with horder
    have hlen : (cumulPos a order).length = order.length := cumulPos_length a order
    have hel := evens_odds_length l
    have hol : order.length = l.length := by simp [horder]; omega
    have hperm : ((interleave ((cumulPos a order).take (evens l).length)
        ((cumulPos a order).drop (evens l).length).reverse).zip l).Perm
        ((cumulPos a order).zip order) := by
      refine (zip_interleave_perm l _ _ ?_ ?_).trans ?_
      · rw [List.length_take, hlen, hol]; omega
      · rw [List.length_reverse, List.length_drop, hlen, hol]; omega
      · have hz : (cumulPos a order).zip order
            = ((cumulPos a order).take (evens l).length).zip (evens l)
              ++ ((cumulPos a order).drop (evens l).length).zip (odds l).reverse := by
          conv_lhs => rw [← List.take_append_drop (evens l).length (cumulPos a order)]
          rw [horder, List.zip_append]
          rw [List.length_take, cumulPos_length]
          simp
        rw [hz]
        refine List.Perm.append_left _ ?_
        have hr := zip_reverse ((cumulPos a order).drop (evens l).length) (odds l).reverse (by
          rw [List.length_drop, hlen, hol, List.length_reverse]; omega)
        rw [List.reverse_reverse] at hr
        rw [hr]
        exact List.reverse_perm _
    unfold groupsHolding
    rw [hperm.countP_eq]
    have h := cumulPos_holding a order (by
      intro s hs
      rw [horder, List.mem_append, List.mem_reverse, mem_evens_odds] at hs
      exact hl s hs) p
    unfold groupsHolding at h
    rw [h]
    have hsum : order.sum = l.sum := by
      rw [horder, List.sum_append, List.sum_reverse, sum_evens_odds]
    rw [hsum]

theorem evens_take_sum (l : List Int) (k : Nat) :
    ((evens l).take k).sum = ((List.range k).map (fun j => l.getD (2 * j) 0)).sum := by
  induction l using evens.induct generalizing k with
  | case1 => simp [evens]
  | case2 a =>
    cases k with
    | zero => simp
    | succ k =>
      rw [List.range_succ_eq_map, List.map_cons, List.sum_cons, List.map_map]
      simp only [evens, List.take_succ_cons, List.take_nil, List.sum_cons, List.sum_nil]
      have : ((List.range k).map ((fun j => [a].getD (2 * j) 0) ∘ Nat.succ)) = List.replicate k 0 := by
        rw [List.eq_replicate_iff]
        refine ⟨by simp, ?_⟩
        intro b hb
        simp only [List.mem_map, Function.comp_apply] at hb
        obtain ⟨j, _, rfl⟩ := hb
        rw [List.getD_eq_default]
        simp; omega
      rw [this]; simp
  | case3 a b l ih =>
    cases k with
    | zero => simp
    | succ k =>
      rw [List.range_succ_eq_map, List.map_cons, List.sum_cons, List.map_map]
      simp only [evens, List.take_succ_cons, List.sum_cons, ih]
      have : ((List.range k).map ((fun j => (a :: b :: l).getD (2 * j) 0) ∘ Nat.succ))
          = (List.range k).map (fun j => l.getD (2 * j) 0) := by
        apply List.map_congr_left
        intro j _
        simp only [Function.comp_apply]
        have : 2 * (Nat.succ j) = 2 * j + 1 + 1 := by omega
        rw [this, List.getD_cons_succ, List.getD_cons_succ]
      rw [this]; simp

theorem odds_take_sum (l : List Int) (k : Nat) :
    ((odds l).take k).sum = ((List.range k).map (fun j => l.getD (2 * j + 1) 0)).sum := by
  rcases l with _ | ⟨a, l⟩
  · simp [odds]
  · have h : ∀ (a : Int) (l : List Int), odds (a :: l) = evens l := by
      intro a l
      induction l using evens.induct generalizing a with
      | case1 => rfl
      | case2 b => rfl
      | case3 b c l ih => simp only [odds, evens, ih]
    rw [h, evens_take_sum]
    simp only [List.getD_cons_succ]

theorem interleave_get {α : Type} (A B : List α) (h : A.length = B.length ∨ A.length = B.length + 1)
    (k : Nat) : (interleave A B)[2 * k]? = A[k]? ∧ (interleave A B)[2 * k + 1]? = B[k]? := by
  induction A, B using interleave.induct generalizing k with
  | case1 b =>
    simp only [List.length_nil] at h
    have : b = [] := by
      apply List.eq_nil_of_length_eq_zero; omega
    subst this
    simp [interleave]
  | case2 x a =>
    simp only [List.length_cons, List.length_nil, Nat.zero_add] at h
    have : a = [] := by
      apply List.eq_nil_of_length_eq_zero; omega
    subst this
    cases k with
    | zero => simp [interleave]
    | succ k => simp [interleave]
  | case3 x a y b ih =>
    simp only [List.length_cons] at h
    cases k with
    | zero => simp [interleave]
    | succ k =>
      have h1 : 2 * (k + 1) = 2 * k + 1 + 1 := by omega
      have := ih (by omega) k
      rw [h1]
      simp only [interleave, List.getElem?_cons_succ]
      exact this

/-- Asymmetric laminates: the groups come alternately from the bottom and from the top. -/
theorem firstPlies_asym_get (a : Int) (l : List Int) (k : Nat) (p : Int) :
    ((firstPlies false a l)[2 * k]? = some p →
      p = a + ((List.range k).map (fun j => l.getD (2 * j) 0)).sum) ∧
    ((firstPlies false a l)[2 * k + 1]? = some p →
      p = a + l.sum - ((List.range (k + 1)).map (fun j => l.getD (2 * j + 1) 0)).sum) := by
  unfold firstPlies
  rw [if_neg (by simp)]
  simp only
  have hel := evens_odds_length l
  have hlen : (cumulPos a (evens l ++ (odds l).reverse)).length = l.length := by
    rw [cumulPos_length]; simp; omega
  have hg := interleave_get ((cumulPos a (evens l ++ (odds l).reverse)).take (evens l).length)
    ((cumulPos a (evens l ++ (odds l).reverse)).drop (evens l).length).reverse (by
      rw [List.length_take, List.length_reverse, List.length_drop, hlen]; omega) k
  rw [hg.1, hg.2]
  constructor
  · intro h
    rw [List.getElem?_take] at h
    split at h
    · rename_i hk
      rw [cumulPos_get _ _ _ _ h, List.take_append_of_le_length (by omega), evens_take_sum]
    · simp at h
  · intro h
    have hk : k < (odds l).length := by
      have := (List.getElem?_eq_some_iff.mp h).1
      rw [List.length_reverse, List.length_drop, hlen] at this
      omega
    rw [List.getElem?_reverse (by rw [List.length_drop, hlen]; omega), List.length_drop, hlen,
      List.getElem?_drop] at h
    rw [cumulPos_get _ _ _ _ h]
    have h1 : (evens l).length + (l.length - (evens l).length - 1 - k)
      = (evens l).length + ((odds l).length - (k + 1)) := by omega
    rw [h1, List.take_length_add_append, List.sum_append, List.take_reverse, List.sum_reverse]
    have h2 : (odds l).length - ((odds l).length - (k + 1)) = k + 1 := by omega
    rw [h2, ← odds_take_sum]
    have h3 := List.sum_take_add_sum_drop (odds l) (k + 1)
    have h4 := sum_evens_odds l
    omega

end Bella
