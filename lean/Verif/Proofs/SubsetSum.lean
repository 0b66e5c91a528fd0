import Verif.Model.SubsetSum
import Verif.Proofs.Monad
import Verif.Spec.Subsets
import Mathlib.Data.List.Sublists
import Mathlib.Data.Nat.Bitwise
import Mathlib.Tactic.Linarith
/-
Lemmas on the model of src/divers/subset_sum.py.
-/
namespace Bella

/-! ### `subset_sum_table` -/

/-- One step of the loop over `j`. -/
def tableStep (w j : Nat) (T : List Nat) : List Nat :=
  if j = 0 then (if T.getD w 0 = 0 then T.set w w else T)
  else if T.getD j 0 ≠ 0 ∧ T.getD (j + w) 0 = 0 then T.set (j + w) w else T

theorem tableRow_succ (w j : Nat) (T : List Nat) : tableRow w (j + 1) T = tableRow w j (tableStep w j T) := rfl

theorem tableStep_length (w j : Nat) (T : List Nat) : (tableStep w j T).length = T.length := by
  unfold tableStep; split_ifs <;> simp

theorem tableStep_get {w j : Nat} {T : List Nat} (hj : j + w < T.length) (i : Nat) :
    (tableStep w j T).getD i 0 = if i = j + w ∧ T.getD i 0 = 0 ∧ (j = 0 ∨ T.getD j 0 ≠ 0) then w else T.getD i 0 := by
  unfold tableStep
  by_cases hj0 : j = 0
  · subst hj0
    simp only [if_true, Nat.zero_add, true_or, and_true]
    by_cases h : T.getD w 0 = 0
    · rw [if_pos h]
      by_cases hi : i = w
      · subst hi
        rw [if_pos ⟨rfl, h⟩]
        simp only [List.getD_eq_getElem?_getD, List.getElem?_set_self (by omega : i < T.length), Option.getD_some]
      · rw [if_neg (fun h => hi h.1)]
        simp only [List.getD_eq_getElem?_getD, List.getElem?_set_ne (Ne.symm hi)]
    · rw [if_neg h]
      split_ifs with h2
      · exact absurd (h2.1 ▸ h2.2) h
      · rfl
  · rw [if_neg hj0]
    by_cases h : T.getD j 0 ≠ 0 ∧ T.getD (j + w) 0 = 0
    · rw [if_pos h]
      by_cases hi : i = j + w
      · subst hi
        rw [if_pos ⟨rfl, h.2, Or.inr h.1⟩]
        simp only [List.getD_eq_getElem?_getD, List.getElem?_set_self hj, Option.getD_some]
      · rw [if_neg (fun h => hi h.1)]
        simp only [List.getD_eq_getElem?_getD, List.getElem?_set_ne (Ne.symm hi)]
    · rw [if_neg h]
      split_ifs with h2
      · obtain ⟨h3, h4, h5⟩ := h2
        subst h3
        exact absurd ⟨h5.resolve_left hj0, h4⟩ h
      · rfl

theorem tableRow_length (w : Nat) : ∀ (k : Nat) (T : List Nat), (tableRow w k T).length = T.length
  | 0, _ => rfl
  | k + 1, T => by rw [tableRow_succ, tableRow_length w k, tableStep_length]

theorem tableRow_get {w : Nat} (hw : 0 < w) : ∀ (k : Nat) (T : List Nat), k + w ≤ T.length → ∀ i,
    (tableRow w k T).getD i 0 =
      if T.getD i 0 = 0 ∧ w ≤ i ∧ i < w + k ∧ (i = w ∨ T.getD (i - w) 0 ≠ 0) then w else T.getD i 0
  | 0, T, _, i => by
    rw [if_neg (by omega)]; rfl
  | k + 1, T, hk, i => by
    rw [tableRow_succ, tableRow_get hw k _ (by rw [tableStep_length]; omega), tableStep_get (by omega),
      tableStep_get (by omega)]
    by_cases hi : i = k + w
    · subst hi
      by_cases h0 : T.getD (k + w) 0 = 0
      · by_cases hc : k = 0 ∨ T.getD k 0 ≠ 0
        · rw [if_pos (c := (k + w = k + w ∧ _)) ⟨rfl, h0, hc⟩, if_neg (by omega), if_pos]
          refine ⟨h0, by omega, by omega, ?_⟩
          rcases hc with hc | hc
          · left; omega
          · right; rwa [show k + w - w = k by omega]
        · rw [if_neg (c := (k + w = k + w ∧ _)) (fun h => hc h.2.2), if_neg (by omega), if_neg]
          rintro ⟨_, _, _, h⟩
          apply hc
          rcases h with h | h
          · left; omega
          · right; rwa [show k + w - w = k by omega] at h
      · rw [if_neg (c := (k + w = k + w ∧ _)) (fun h => h0 h.2.1), if_neg (fun h => h0 h.1), if_neg (fun h => h0 h.1)]
    · rw [if_neg (c := (i = k + w ∧ _)) (fun h => hi h.1)]
      by_cases hr : T.getD i 0 = 0 ∧ w ≤ i ∧ i < w + k
      · have : (i - w = k + w ∧ T.getD (i - w) 0 = 0 ∧ (k = 0 ∨ T.getD k 0 ≠ 0)) ↔ False :=
          ⟨fun h => by omega, False.elim⟩
        simp only [this, if_false]
        by_cases hc : i = w ∨ T.getD (i - w) 0 ≠ 0
        · rw [if_pos ⟨hr.1, hr.2.1, hr.2.2, hc⟩, if_pos ⟨hr.1, hr.2.1, by omega, hc⟩]
        · rw [if_neg (fun h => hc h.2.2.2), if_neg (fun h => hc h.2.2.2)]
      · rw [if_neg (fun h => hr ⟨h.1, h.2.1, h.2.2.1⟩), if_neg]
        rintro ⟨h1, h2, h3, _⟩
        exact hr ⟨h1, h2, by omega⟩

theorem tableRow_zero : ∀ (k : Nat) (T : List Nat), T.getD 0 0 = 0 → tableRow 0 k T = T
  | 0, _, _ => rfl
  | k + 1, T, h => by
    have : tableStep 0 k T = T := by
      unfold tableStep
      by_cases hk : k = 0
      · subst hk
        rw [if_pos rfl, if_pos h]
        cases T with
        | nil => rfl
        | cons a t => simp only [List.getD_cons_zero] at h; subst h; rfl
      · rw [if_neg hk, if_neg (by simp only [Nat.add_zero]; tauto)]
    rw [tableRow_succ, this, tableRow_zero k T h]

/-- The entries of the table followed from `i` on. -/
inductive TableChain (T : List Nat) : Nat → List Nat → Prop
  | nil : TableChain T 0 []
  | cons {i x : Nat} {l : List Nat} : T.getD i 0 = x → 0 < x → x ≤ i → TableChain T (i - x) l → TableChain T i (x :: l)

theorem TableChain.sum {T : List Nat} {i : Nat} {l : List Nat} (h : TableChain T i l) : l.sum = i := by
  induction h with
  | nil => rfl
  | cons h1 h2 h3 _ ih => rw [List.sum_cons, ih]; omega

theorem TableChain.mono {T T' : List Nat} (h : ∀ i, T.getD i 0 ≠ 0 → T'.getD i 0 = T.getD i 0) {i : Nat} {l : List Nat}
    (c : TableChain T i l) : TableChain T' i l := by
  induction c with
  | nil => exact .nil
  | cons h1 h2 h3 _ ih =>
    subst h1
    exact .cons (h _ (by omega)) h2 h3 ih

/-- The state of the table after the weights `p`. -/
structure TableInv (t : Nat) (p T : List Nat) : Prop where
  len : T.length = t + 1
  zero : T.getD 0 0 = 0
  sound : ∀ i, T.getD i 0 ≠ 0 → ∃ l : List Nat, TableChain T i l ∧ l.reverse.Sublist p
  complete : ∀ l : List Nat, l.Sublist p → 0 < l.sum → l.sum ≤ t → T.getD l.sum 0 ≠ 0

theorem TableInv.step {t : Nat} {p T : List Nat} (h : TableInv t p T) (x : Nat) :
    TableInv t (p ++ [x]) (if x ≤ t then tableRow x (t - x + 1) T else T) := by
  by_cases hx0 : x = 0
  · subst hx0
    rw [if_pos (Nat.zero_le _), tableRow_zero _ _ h.zero]
    refine ⟨h.len, h.zero, fun i hi => ?_, fun l hl h1 h2 => ?_⟩
    · obtain ⟨l, h1, h2⟩ := h.sound i hi
      exact ⟨l, h1, h2.trans (List.sublist_append_left _ _)⟩
    · obtain ⟨l1, l2, rfl, hl1, hl2⟩ := List.sublist_append_iff.1 hl
      have h3 : l2.sum = 0 := by
        rcases List.sublist_singleton.1 hl2 with h4 | h4 <;> rw [h4] <;> rfl
      rw [List.sum_append, h3, Nat.add_zero] at h1 h2 ⊢
      exact h.complete l1 hl1 h1 h2
  · by_cases hx : x ≤ t
    · rw [if_pos hx]
      have hg := tableRow_get (Nat.pos_of_ne_zero hx0) (t - x + 1) T (by rw [h.len]; omega)
      have hmono : ∀ i, T.getD i 0 ≠ 0 → (tableRow x (t - x + 1) T).getD i 0 = T.getD i 0 := by
        intro i hi
        rw [hg, if_neg (fun hh => hi hh.1)]
      refine ⟨by rw [tableRow_length, h.len], ?_, fun i hi => ?_, fun l hl h1 h2 => ?_⟩
      · rw [hg, if_neg (by omega), h.zero]
      · by_cases ho : T.getD i 0 = 0
        · rw [hg] at hi
          by_cases hc : T.getD i 0 = 0 ∧ x ≤ i ∧ i < x + (t - x + 1) ∧ (i = x ∨ T.getD (i - x) 0 ≠ 0)
          · have hv : (tableRow x (t - x + 1) T).getD i 0 = x := by rw [hg, if_pos hc]
            by_cases h4 : i = x
            · refine ⟨[x], .cons hv (by omega) (by omega) (by rw [h4, Nat.sub_self]; exact .nil), ?_⟩
              exact List.sublist_append_right _ _
            · obtain ⟨l, h1, h2⟩ := h.sound (i - x) (hc.2.2.2.resolve_left h4)
              refine ⟨x :: l, .cons hv (by omega) hc.2.1 (h1.mono hmono), ?_⟩
              rw [List.reverse_cons]
              exact h2.append (List.Sublist.refl _)
          · rw [if_neg hc] at hi
            exact absurd ho hi
        · obtain ⟨l, h1, h2⟩ := h.sound i ho
          exact ⟨l, h1.mono hmono, h2.trans (List.sublist_append_left _ _)⟩
      · obtain ⟨l1, l2, rfl, hl1, hl2⟩ := List.sublist_append_iff.1 hl
        rcases List.sublist_singleton.1 hl2 with h4 | h4
        · subst h4
          rw [List.append_nil] at h1 h2 ⊢
          have h5 := h.complete l1 hl1 h1 h2
          rw [hmono _ h5]; exact h5
        · subst h4
          rw [List.sum_append, List.sum_singleton] at h1 h2 ⊢
          by_cases h6 : T.getD (l1.sum + x) 0 = 0
          · rw [hg, if_pos]
            · exact hx0
            · refine ⟨h6, by omega, by omega, ?_⟩
              by_cases h7 : l1.sum = 0
              · left; omega
              · right
                rw [Nat.add_sub_cancel]
                exact h.complete l1 hl1 (by omega) (by omega)
          · rw [hmono _ h6]; exact h6
    · rw [if_neg hx]
      refine ⟨h.len, h.zero, fun i hi => ?_, fun l hl h1 h2 => ?_⟩
      · obtain ⟨l, h1, h2⟩ := h.sound i hi
        exact ⟨l, h1, h2.trans (List.sublist_append_left _ _)⟩
      · obtain ⟨l1, l2, rfl, hl1, hl2⟩ := List.sublist_append_iff.1 hl
        rcases List.sublist_singleton.1 hl2 with h4 | h4
        · subst h4
          rw [List.append_nil] at h1 h2 ⊢
          exact h.complete l1 hl1 h1 h2
        · subst h4
          rw [List.sum_append, List.sum_singleton] at h2
          omega

theorem tableInv_foldl {t : Nat} : ∀ (w p T : List Nat), TableInv t p T →
    TableInv t (p ++ w) (w.foldl (fun (table : List Nat) (x : Nat) => if x ≤ t then tableRow x (t - x + 1) table else table) T)
  | [], p, T, h => by simpa using h
  | x :: w, p, T, h => by
    have := tableInv_foldl w (p ++ [x]) _ (h.step x)
    rwa [List.append_assoc] at this

theorem subsetSumTable_inv (t : Nat) (w : List Nat) : TableInv t w (subsetSumTable t w) := by
  refine tableInv_foldl w [] _ ⟨by simp, by simp, fun i hi => ?_, fun l hl h1 h2 => ?_⟩
  · exfalso; apply hi
    simp only [List.getD_eq_getElem?_getD, List.getElem?_replicate]
    split <;> rfl
  · rw [List.sublist_nil.1 hl] at h1
    simp at h1

theorem tableToListLoop_chain {T : List Nat} {i : Nat} {l : List Nat} (h : TableChain T i l) :
    ∀ fuel, i ≤ fuel → tableToListLoop T fuel i = some (.ok l) := by
  induction h with
  | nil => intro fuel _; cases fuel <;> rfl
  | @cons i x l h1 h2 h3 _ ih =>
    intro fuel hf
    cases fuel with
    | zero => omega
    | succ k =>
      have hl : i < T.length := by
        by_contra hc
        rw [List.getD_eq_default _ _ (by omega)] at h1
        omega
      have hg : pyGet T i = .ok x := by
        rw [pyGet_ok hl, ← h1, List.getD_eq_getElem _ _ hl]
      unfold tableToListLoop
      rw [if_pos (by omega), hg]
      simp only
      rw [if_neg (by omega), ih k (by omega)]


/-! ### `subset_next`, `subset_sum_count`, `subset_sum_find` -/

open Spec

/-- Value of binary digits, the least significant first. -/
def leVal : List Bool → Nat
  | [] => 0
  | b :: l => b.toNat + 2 * leVal l

theorem leVal_lt : ∀ l : List Bool, leVal l < 2 ^ l.length
  | [] => by simp [leVal]
  | b :: l => by
    have := leVal_lt l
    have hb : b.toNat ≤ 1 := by cases b <;> simp
    simp only [leVal, List.length_cons, Nat.pow_succ]
    omega

theorem leVal_inj : ∀ (l l' : List Bool), l.length = l'.length → leVal l = leVal l' → l = l'
  | [], [], _, _ => rfl
  | b :: l, b' :: l', hl, hv => by
    simp only [leVal] at hv
    have hb : b.toNat ≤ 1 := by cases b <;> simp
    have hb' : b'.toNat ≤ 1 := by cases b' <;> simp
    have h1 : leVal l = leVal l' := by omega
    have h2 : b.toNat = b'.toNat := by omega
    rw [leVal_inj l l' (by simpa using hl) h1]
    congr 1
    revert h2
    cases b <;> cases b' <;> simp

theorem subsetIncr_length : ∀ l : List Bool, (subsetIncr l).1.length = l.length
  | [] => rfl
  | false :: _ => rfl
  | true :: l => by simp only [subsetIncr, List.length_cons, subsetIncr_length l]

theorem subsetIncr_spec : ∀ l : List Bool,
    (leVal l + 1 < 2 ^ l.length → (subsetIncr l).2 = true ∧ leVal (subsetIncr l).1 = leVal l + 1) ∧
    (leVal l + 1 = 2 ^ l.length → (subsetIncr l).2 = false ∧ (subsetIncr l).1 = List.replicate l.length false)
  | [] => by simp [leVal, subsetIncr]
  | false :: l => by
    have := leVal_lt l
    refine ⟨fun _ => ⟨rfl, ?_⟩, fun h => ?_⟩
    · simp [subsetIncr, leVal]; omega
    · simp only [leVal, Bool.toNat_false, List.length_cons, Nat.pow_succ] at h
      omega
  | true :: l => by
    obtain ⟨h1, h2⟩ := subsetIncr_spec l
    refine ⟨fun h => ?_, fun h => ?_⟩
    · simp only [leVal, Bool.toNat_true, List.length_cons, Nat.pow_succ] at h
      obtain ⟨h3, h4⟩ := h1 (by omega)
      refine ⟨by simpa only [subsetIncr] using h3, ?_⟩
      simp only [subsetIncr, leVal, h4, Bool.toNat_false, Bool.toNat_true]
      omega
    · simp only [leVal, Bool.toNat_true, List.length_cons, Nat.pow_succ] at h
      obtain ⟨h3, h4⟩ := h2 (by omega)
      exact ⟨by simpa only [subsetIncr] using h3, by simp only [subsetIncr, h4, List.length_cons, List.replicate_succ]⟩

theorem subsetOfRank_length (n k : Nat) : (subsetOfRank n k).length = n := by simp [subsetOfRank]

theorem subsetOfRank_reverse (n k : Nat) : (subsetOfRank n k).reverse = (List.range n).map k.testBit := by
  apply List.ext_getElem
  · simp [subsetOfRank]
  · intro i h1 h2
    simp only [List.length_reverse, subsetOfRank_length] at h1
    simp only [subsetOfRank, List.getElem_reverse, List.getElem_map, List.getElem_range, List.length_map,
      List.length_range]
    congr 1
    omega

theorem leVal_testBit : ∀ (n k : Nat), k < 2 ^ n → leVal ((List.range n).map k.testBit) = k
  | 0, k, h => by simp at h; subst h; rfl
  | n + 1, k, h => by
    rw [List.range_succ_eq_map, List.map_cons, List.map_map]
    have h1 : (k.testBit ∘ Nat.succ) = (k / 2).testBit := by
      funext i; simp [Function.comp, Nat.testBit_succ]
    rw [leVal, h1, leVal_testBit n (k / 2) (by rw [Nat.pow_succ] at h; omega)]
    have : (k.testBit 0).toNat = k % 2 := by
      rw [Nat.testBit_zero]
      rcases Nat.mod_two_eq_zero_or_one k with h2 | h2 <;> simp [h2]
    omega

theorem subsetOfRank_zero (n : Nat) : subsetOfRank n 0 = List.replicate n false := by
  simp only [subsetOfRank, Nat.zero_testBit]
  exact List.eq_replicate_iff.2 ⟨by simp, by simp⟩

theorem subsetNext_rank {n k : Nat} (hk : k + 1 < 2 ^ n) :
    subsetNext (subsetOfRank n k) k = (subsetOfRank n (k + 1), (k : Int) + 1) := by
  have hl : ((subsetOfRank n k).reverse).length = n := by simp [subsetOfRank_length]
  have hv : leVal (subsetOfRank n k).reverse = k := by
    rw [subsetOfRank_reverse, leVal_testBit n k (by omega)]
  obtain ⟨h1, h2⟩ := (subsetIncr_spec (subsetOfRank n k).reverse).1 (by rw [hv, hl]; omega)
  unfold subsetNext
  rw [if_neg (by omega)]
  simp only [h1, if_true]
  congr 1
  have : (subsetIncr (subsetOfRank n k).reverse).1 = (subsetOfRank n (k + 1)).reverse := by
    apply leVal_inj
    · rw [subsetIncr_length, hl, List.length_reverse, subsetOfRank_length]
    · rw [h2, hv, subsetOfRank_reverse, leVal_testBit n (k + 1) hk]
  rw [this, List.reverse_reverse]

theorem subsetNext_last {n k : Nat} (hk : k + 1 = 2 ^ n) :
    subsetNext (subsetOfRank n k) k = (List.replicate n false, -1) := by
  have hl : ((subsetOfRank n k).reverse).length = n := by simp [subsetOfRank_length]
  have hv : leVal (subsetOfRank n k).reverse = k := by
    rw [subsetOfRank_reverse, leVal_testBit n k (by omega)]
  obtain ⟨h1, h2⟩ := (subsetIncr_spec (subsetOfRank n k).reverse).2 (by rw [hv, hl]; omega)
  unfold subsetNext
  rw [if_neg (by omega)]
  simp only [h1, h2, hl, List.reverse_replicate]
  rfl

theorem subsetTotal_chosen : ∀ (w : List Int) (s : List Bool), subsetTotal w s = (chosen s w).sum
  | [], s => by cases s with
    | nil => rfl
    | cons b s => cases b <;> rfl
  | x :: w, [] => by simp [subsetTotal, chosen]
  | x :: w, true :: s => by
    have := subsetTotal_chosen w s
    simp only [subsetTotal] at this
    simp only [subsetTotal, chosen, List.zipWith_cons_cons, List.sum_cons, if_true, this]
  | x :: w, false :: s => by
    have := subsetTotal_chosen w s
    simp only [subsetTotal] at this
    simp [subsetTotal, chosen, List.zipWith_cons_cons, List.sum_cons, this]

theorem subsetOfRank_succ_low {n k : Nat} (hk : k < 2 ^ n) : subsetOfRank (n + 1) k = false :: subsetOfRank n k := by
  unfold subsetOfRank
  rw [List.range_succ_eq_map, List.map_cons, List.map_map]
  congr 1
  · simp only [Nat.add_sub_cancel, Nat.sub_zero]
    exact Nat.testBit_lt_two_pow hk
  · apply List.map_congr_left
    intro i _
    simp only [Function.comp]
    congr 1
    omega

theorem subsetOfRank_succ_high {n k : Nat} (hk : k < 2 ^ n) :
    subsetOfRank (n + 1) (2 ^ n + k) = true :: subsetOfRank n k := by
  unfold subsetOfRank
  rw [List.range_succ_eq_map, List.map_cons, List.map_map]
  congr 1
  · simp only [Nat.add_sub_cancel, Nat.sub_zero]
    rw [Nat.testBit_two_pow_add_eq, Nat.testBit_lt_two_pow hk]
    rfl
  · apply List.map_congr_left
    intro i hi
    rw [List.mem_range] at hi
    simp only [Function.comp]
    rw [Nat.testBit_two_pow_add_gt (by omega)]
    congr 1
    omega

theorem chosen_ranks : ∀ (w : List Int),
    (List.range (2 ^ w.length)).map (fun k => chosen (subsetOfRank w.length k) w) = w.sublists'
  | [] => rfl
  | x :: w => by
    have ih := chosen_ranks w
    rw [List.length_cons, Nat.pow_succ, Nat.mul_two, List.range_add, List.map_append, List.map_map,
      List.sublists'_cons, ← ih, List.map_map]
    congr 1
    · apply List.map_congr_left
      intro k hk
      rw [subsetOfRank_succ_low (List.mem_range.1 hk)]
      rfl
    · apply List.map_congr_left
      intro k hk
      simp only [Function.comp]
      rw [subsetOfRank_succ_high (List.mem_range.1 hk)]
      rfl

theorem countLoop_rank {w : List Int} {t : Int} : ∀ (m k c fuel : Nat), k + 1 + m = 2 ^ w.length → m < fuel →
    countLoop w t fuel (subsetOfRank w.length k) k c =
      some (c + (List.range m).countP (fun j => decide (subsetTotal w (subsetOfRank w.length (k + 1 + j)) = t)))
  | _, _, _, 0, _, h => absurd h (Nat.not_lt_zero _)
  | 0, k, c, fuel + 1, h, _ => by
    unfold countLoop
    simp only [subsetNext_last h]
    simp
  | m + 1, k, c, fuel + 1, h, hf => by
    unfold countLoop
    simp only [subsetNext_rank (show k + 1 < 2 ^ w.length by omega)]
    rw [if_neg (by omega)]
    have := countLoop_rank (w := w) (t := t) m (k + 1) (if subsetTotal w (subsetOfRank w.length (k + 1)) = t then c + 1 else c) fuel (by omega) (by omega)
    rw [Nat.cast_add, Nat.cast_one] at this
    rw [this, List.range_succ_eq_map, List.countP_cons, List.countP_map]
    congr 1
    have he : (fun j => decide (subsetTotal w (subsetOfRank w.length (k + 1 + 1 + j)) = t)) =
        ((fun j => decide (subsetTotal w (subsetOfRank w.length (k + 1 + j)) = t)) ∘ Nat.succ) := by
      funext j
      simp only [Function.comp, Nat.succ_eq_add_one]
      rw [show k + 1 + 1 + j = k + 1 + (j + 1) by omega]
    rw [he, Nat.add_zero]
    by_cases h1 : subsetTotal w (subsetOfRank w.length (k + 1)) = t <;> simp [h1] <;> omega

theorem findLoop_rank {w : List Int} {t : Int} : ∀ (m k fuel : Nat), k + 1 + m = 2 ^ w.length → m < fuel →
    ∃ s, findLoop w t fuel (subsetOfRank w.length k) k = some s ∧
      ((∃ j, k < j ∧ j < 2 ^ w.length ∧ s = subsetOfRank w.length j ∧ subsetTotal w s = t) ∨
        (s = List.replicate w.length false ∧ ∀ j, k < j → j < 2 ^ w.length → subsetTotal w (subsetOfRank w.length j) ≠ t))
  | _, _, 0, _, h => absurd h (Nat.not_lt_zero _)
  | 0, k, fuel + 1, h, _ => by
    unfold findLoop
    simp only [subsetNext_last h]
    exact ⟨_, rfl, Or.inr ⟨rfl, fun j h1 h2 => by omega⟩⟩
  | m + 1, k, fuel + 1, h, hf => by
    unfold findLoop
    simp only [subsetNext_rank (show k + 1 < 2 ^ w.length by omega)]
    rw [if_neg (by omega)]
    by_cases h1 : subsetTotal w (subsetOfRank w.length (k + 1)) = t
    · rw [if_pos h1]
      exact ⟨_, rfl, Or.inl ⟨k + 1, by omega, by omega, rfl, h1⟩⟩
    · rw [if_neg h1]
      obtain ⟨s, h2, h3⟩ := findLoop_rank (w := w) (t := t) m (k + 1) fuel (by omega) (by omega)
      rw [Nat.cast_add, Nat.cast_one] at h2
      refine ⟨s, h2, ?_⟩
      rcases h3 with ⟨j, h4, h5, h6⟩ | ⟨h4, h5⟩
      · exact Or.inl ⟨j, by omega, h5, h6⟩
      · refine Or.inr ⟨h4, fun j h6 h7 => ?_⟩
        by_cases h8 : j = k + 1
        · subst h8; exact h1
        · exact h5 j (by omega) h7

end Bella
