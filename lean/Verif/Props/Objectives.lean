import Verif.Model.Objectives
import Verif.Spec.Objective
import Verif.Proofs.Monad
import Verif.Proofs.Sums
import Mathlib.Tactic.Positivity
import Mathlib.Tactic.GCongr
import Mathlib.Algebra.Order.BigOperators.Group.Finset
import Mathlib.Algebra.Order.BigOperators.Group.List
/-
C23, C51: objective functions.
-/
namespace Bella
open Spec

theorem zipWith3_sum (f : ℚ → ℚ → ℚ) (w x y : List ℚ) (h1 : x.length = y.length)
    (h2 : w.length = x.length) :
    (List.zipWith (· * ·) w (List.zipWith f x y)).sum
      = ∑ i ∈ Finset.range x.length, w.getD i 0 * f (x.getD i 0) (y.getD i 0) := by
  induction w generalizing x y with
  | nil => simp only [List.length_nil] at h2; simp [← h2]
  | cons a w ih =>
    rcases x with _ | ⟨b, x⟩
    · simp at h2
    rcases y with _ | ⟨c, y⟩
    · simp at h1
    simp only [List.length_cons, Nat.add_right_cancel_iff] at h1 h2
    rw [List.zipWith_cons_cons, List.zipWith_cons_cons, List.sum_cons, ih x y h1 h2, List.length_cons,
      Finset.sum_range_succ']
    simp only [List.getD_cons_succ, List.getD_cons_zero]
    ring

/-- The objective of a panel is the weighted square distance of its lamination parameters to the
targets. -/
theorem C23_one_panel (lampam target weights : List ℚ) (r : ℚ)
    (h : objOnePanel lampam target weights = .ok r) : r = sqDist weights lampam target := by
  unfold objOnePanel at h
  split at h
  · rename_i hl
    simp only [Except.ok.injEq] at h
    rw [← h, zipWith3_sum _ _ _ _ hl.1 hl.2]
    rfl
  · simp at h

/-- It is never negative, and vanishes exactly when every weighted lamination parameter is on
target. -/
theorem C23_one_panel_zero (lampam target weights : List ℚ) (r : ℚ)
    (hw : ∀ w ∈ weights, 0 ≤ w) (h : objOnePanel lampam target weights = .ok r) :
    0 ≤ r ∧ (r = 0 ↔ ∀ (i : Nat) (l t w : ℚ), lampam[i]? = some l → target[i]? = some t →
      weights[i]? = some w → w ≠ 0 → l = t) := by
  have hr := C23_one_panel _ _ _ _ h
  unfold objOnePanel at h
  split at h
  · rename_i hl
    have hw' : ∀ i, 0 ≤ weights.getD i 0 := by
      intro i
      rw [List.getD_eq_getElem?_getD]
      cases hi : weights[i]? with
      | none => simp
      | some w => simpa using hw w (List.mem_of_getElem? hi)
    have hnn : ∀ i ∈ Finset.range lampam.length,
        0 ≤ weights.getD i 0 * (lampam.getD i 0 - target.getD i 0) ^ 2 := by
      intro i _
      have := hw' i
      positivity
    refine ⟨by rw [hr]; exact Finset.sum_nonneg hnn, ?_⟩
    rw [hr]
    unfold sqDist
    rw [Finset.sum_eq_zero_iff_of_nonneg hnn]
    constructor
    · intro hz i l t w h1 h2 h3 h4
      have hi : i < lampam.length := (List.getElem?_eq_some_iff.mp h1).1
      have := hz i (Finset.mem_range.2 hi)
      simp only [List.getD_eq_getElem?_getD, h1, h2, h3, Option.getD_some, mul_eq_zero] at this
      rcases this with h5 | h5
      · exact absurd h5 h4
      · have := pow_eq_zero_iff (n := 2) (by norm_num) |>.1 h5
        linarith
    · intro hz i hi
      rw [Finset.mem_range] at hi
      obtain ⟨l, h1⟩ : ∃ l, lampam[i]? = some l := ⟨_, List.getElem?_eq_getElem hi⟩
      obtain ⟨t, h2⟩ : ∃ t, target[i]? = some t := ⟨_, List.getElem?_eq_getElem (by omega)⟩
      obtain ⟨w, h3⟩ : ∃ w, weights[i]? = some w := ⟨_, List.getElem?_eq_getElem (by omega)⟩
      simp only [List.getD_eq_getElem?_getD, h1, h2, h3, Option.getD_some]
      by_cases h4 : w = 0
      · simp [h4]
      · rw [hz i l t w h1 h2 h3 h4]; ring
  · simp at h

example : objOnePanel [1/2, 0, -1] [1/2, 1, 0] [1, 0, 0] = .ok 0 := by decide +kernel

/-- LAYLA's objectives: weighted square or absolute distance. -/
theorem C23_layla (k : Int) (lampam target weights : List ℚ) (r : ℚ)
    (h : laylaObjective k lampam target weights = .ok r) :
    (k = 2 ∧ r = sqDist weights lampam target) ∨ (k = 1 ∧ r = absDist weights lampam target) := by
  unfold laylaObjective at h
  split at h
  · rename_i hl
    split at h
    · rename_i hk
      simp only [Except.ok.injEq] at h
      left
      refine ⟨hk, ?_⟩
      rw [← h, zipWith3_sum _ _ _ _ hl.1 hl.2]; rfl
    · split at h
      · rename_i hk
        simp only [Except.ok.injEq] at h
        right
        refine ⟨hk, ?_⟩
        rw [← h, zipWith3_sum _ _ _ _ hl.1 hl.2]; rfl
      · simp at h
  · simp at h

/-- Value of a penalty argument for panel `i`. -/
def Pen.at (i : Nat) : Pen → ℚ
  | .none => 0
  | .num q => q
  | .arr l => l.getD i 0

theorem foldl_zip_sum (fs : List (List ℚ)) (acc : List ℚ) (n : Nat) (ha : acc.length = n)
    (hf : ∀ f ∈ fs, f.length = n) :
    (fs.foldl (fun acc f => List.zipWith (· * ·) acc f) acc).sum
      = ∑ i ∈ Finset.range n, acc.getD i 0 * (fs.map (fun f => f.getD i 0)).prod := by
  induction fs generalizing acc with
  | nil =>
    simp only [List.foldl_nil, List.map_nil, List.prod_nil, mul_one]
    have := zipWith3_sum (fun a _ => a) (List.replicate n 1) acc acc rfl (by simp [ha])
    rw [ha] at this
    have e : List.zipWith (fun a _ : ℚ => a) acc acc = acc := by
      clear this ha
      induction acc with
      | nil => rfl
      | cons a acc ih => simp
    have e2 : List.zipWith (· * ·) (List.replicate n (1 : ℚ)) acc = acc := by
      rw [← ha]
      clear this ha e
      induction acc with
      | nil => rfl
      | cons a acc ih => simp [List.replicate_succ, ih]
    rw [e, e2] at this
    rw [this]
    apply Finset.sum_congr rfl
    intro i hi
    rw [Finset.mem_range] at hi
    rw [List.getD_eq_getElem?_getD (l := List.replicate n (1 : ℚ)), List.getElem?_replicate, if_pos hi]
    simp
  | cons f fs ih =>
    have hfl := hf f (by simp)
    rw [List.foldl_cons, ih _ (by rw [List.length_zipWith]; omega) (fun g hg => hf g (by simp [hg]))]
    apply Finset.sum_congr rfl
    intro i hi
    rw [Finset.mem_range] at hi
    rw [List.map_cons, List.prod_cons, ← mul_assoc]
    congr 1
    simp only [List.getD_eq_getElem?_getD, List.getElem?_zipWith]
    rw [List.getElem?_eq_getElem (by omega : i < acc.length), List.getElem?_eq_getElem (by omega : i < f.length)]
    simp

/-- The objective of the structure is the weighted sum of the penalised objectives of its panels. -/
theorem C23_multi_panel (weights objective : List ℚ) (pens : List (ℚ × Pen)) (r : ℚ)
    (h : objMultiPanel weights objective pens = .ok r) :
    r = ∑ i ∈ Finset.range weights.length, penalised (weights.getD i 0) (objective.getD i 0)
      (pens.map (fun cp => (cp.1, cp.2.at i))) := by
  unfold objMultiPanel at h
  split at h
  · rename_i hl
    simp only [bind_ok] at h
    obtain ⟨fs, hfs, hr⟩ := h
    simp only [pure, Except.pure, Except.ok.injEq] at hr
    have hinv := mapM_inv _ _ _ hfs
    have hlen : ∀ f ∈ fs, f.length = weights.length := by
      intro f hf
      have : ∀ (ps : List (ℚ × Pen)) (fs : List (List ℚ)),
          List.Forall₂ (fun x y => penFactors weights.length x = Except.ok y) ps fs →
          ∀ f ∈ fs, f.length = weights.length := by
        intro ps fs hF
        induction hF with
        | nil => simp
        | cons hab _ ih =>
          intro f hf
          rw [List.mem_cons] at hf
          rcases hf with rfl | hf
          · unfold penFactors at hab
            split at hab
            · simp at hab
            · simp only [Except.ok.injEq] at hab; simp [← hab]
            · split at hab
              · simp only [Except.ok.injEq] at hab; simp [← hab]; assumption
              · simp at hab
          · exact ih f hf
      exact this _ _ hinv f hf
    rw [← hr, foldl_zip_sum fs _ weights.length (by rw [List.length_zipWith]; omega) hlen]
    apply Finset.sum_congr rfl
    intro i hi
    rw [Finset.mem_range] at hi
    unfold penalised
    congr 1
    · simp only [List.getD_eq_getElem?_getD, List.getElem?_zipWith]
      rw [List.getElem?_eq_getElem hi, List.getElem?_eq_getElem (by omega : i < objective.length)]
      simp
    · congr 1
      rw [List.map_map]
      clear hlen hr hfs
      induction hinv with
      | nil => rfl
      | cons hab _ ih =>
        rw [List.map_cons, List.map_cons, ih]
        congr 1
        rename_i cp f ps fs' _
        simp only [Function.comp_apply]
        unfold penFactors at hab
        split at hab
        · simp at hab
        · rename_i q hq
          simp only [Except.ok.injEq] at hab
          rw [← hab, hq, List.getD_eq_getElem?_getD, List.getElem?_replicate, if_pos hi]
          rfl
        · rename_i l hq
          split at hab
          · rename_i hll
            simp only [Except.ok.injEq] at hab
            rw [← hab, hq]
            simp only [List.getD_eq_getElem?_getD, List.getElem?_map, Pen.at]
            rw [List.getElem?_eq_getElem (by omega : i < l.length)]
            simp
          · simp at hab
  · simp at h

/-- Without penalties it is the weighted sum of the objectives of the panels. -/
theorem C23_no_penalty (weights objective : List ℚ) (pens : List (ℚ × Pen)) (r : ℚ)
    (h : objMultiPanel weights objective pens = .ok r)
    (h0 : ∀ cp ∈ pens, cp.1 = 0 ∨ ∀ i, cp.2.at i = 0) :
    r = ∑ i ∈ Finset.range weights.length, weights.getD i 0 * objective.getD i 0 := by
  rw [C23_multi_panel weights objective pens r h]
  apply Finset.sum_congr rfl
  intro i _
  unfold penalised
  have : ((pens.map (fun cp => (cp.1, cp.2.at i))).map (fun cp : ℚ × ℚ => 1 + cp.1 * cp.2)).prod = 1 := by
    rw [List.map_map]
    apply List.prod_eq_one
    intro x hx
    simp only [List.mem_map, Function.comp_apply] at hx
    obtain ⟨cp, hcp, rfl⟩ := hx
    rcases h0 cp hcp with h1 | h1
    · rw [h1]; ring
    · rw [h1 i]; ring
  rw [this, mul_one]

/-- The objective of the structure never decreases when penalties grow, and penalties never decrease
it. (Weights, panel objectives, coefficients and penalties being non-negative.) -/
theorem C23_monotone (weights objective : List ℚ) (pens pens' : List (ℚ × Pen)) (r r' : ℚ)
    (hw : ∀ w ∈ weights, 0 ≤ w) (ho : ∀ o ∈ objective, 0 ≤ o)
    (hp : List.Forall₂ (fun a b => a.1 = b.1 ∧ 0 ≤ a.1 ∧ ∀ i, 0 ≤ a.2.at i ∧ a.2.at i ≤ b.2.at i)
      pens pens')
    (h : objMultiPanel weights objective pens = .ok r)
    (h' : objMultiPanel weights objective pens' = .ok r') :
    (∑ i ∈ Finset.range weights.length, weights.getD i 0 * objective.getD i 0) ≤ r ∧ r ≤ r' := by
  have getD_nn : ∀ (l : List ℚ) (i : Nat), (∀ x ∈ l, 0 ≤ x) → 0 ≤ l.getD i 0 := by
    intro l i hl
    rw [List.getD_eq_getElem?_getD]
    cases hi : l[i]? with
    | none => simp
    | some w => simpa using hl w (List.mem_of_getElem? hi)
  have hprod : ∀ i, 1 ≤ ((pens.map (fun cp => (cp.1, cp.2.at i))).map
        (fun cp : ℚ × ℚ => 1 + cp.1 * cp.2)).prod ∧
      ((pens.map (fun cp => (cp.1, cp.2.at i))).map (fun cp : ℚ × ℚ => 1 + cp.1 * cp.2)).prod
        ≤ ((pens'.map (fun cp => (cp.1, cp.2.at i))).map (fun cp : ℚ × ℚ => 1 + cp.1 * cp.2)).prod := by
    intro i
    clear h h'
    induction hp with
    | nil => simp
    | cons hab _ ih =>
      rename_i a b l1 l2 _
      obtain ⟨e, hc, hi⟩ := hab
      have hi := hi i
      simp only [List.map_cons, List.prod_cons]
      have h1 : 0 ≤ a.1 * a.2.at i := mul_nonneg hc hi.1
      have h2 : a.1 * a.2.at i ≤ b.1 * b.2.at i := by
        rw [← e]; exact mul_le_mul_of_nonneg_left hi.2 hc
      constructor
      · calc (1 : ℚ) = 1 * 1 := by ring
          _ ≤ _ := mul_le_mul (by linarith) ih.1 (by norm_num) (by linarith)
      · exact mul_le_mul (by linarith) ih.2 (by linarith [ih.1]) (by linarith)
  rw [C23_multi_panel weights objective pens r h, C23_multi_panel weights objective pens' r' h']
  constructor
  · apply Finset.sum_le_sum
    intro i _
    unfold penalised
    have := mul_nonneg (getD_nn weights i hw) (getD_nn objective i ho)
    calc weights.getD i 0 * objective.getD i 0 = weights.getD i 0 * objective.getD i 0 * 1 := by ring
      _ ≤ _ := mul_le_mul_of_nonneg_left (hprod i).1 this
  · apply Finset.sum_le_sum
    intro i _
    unfold penalised
    exact mul_le_mul_of_nonneg_left (hprod i).2
      (mul_nonneg (getD_nn weights i hw) (getD_nn objective i ho))

example : ∃ r r', objMultiPanel [1/2, 1/2] [1, 2] [(1, .arr [0, 1]), (0, .num 0)] = .ok r ∧
    objMultiPanel [1/2, 1/2] [1, 2] [(1, .arr [1, 1]), (0, .num 0)] = .ok r' ∧ r < r' :=
  ⟨5/2, 3, by decide +kernel⟩

theorem foldl_mul_eq (l : List ℚ) (a : ℚ) : l.foldl (· * ·) a = a * l.prod := by
  induction l generalizing a with
  | nil => simp
  | cons x l ih => rw [List.foldl_cons, ih, List.prod_cons, mul_assoc]

theorem penFactorAt_list {n : Nat} (i : Nat) (hi : i < n) (pens : List (ℚ × Pen)) (f1 : List ℚ)
    (hp : ∀ cp ∈ pens, ∀ l, cp.2 = .arr l → l.length = n)
    (hF : List.Forall₂ (fun x y => penFactorAt i x = Except.ok y) pens f1) :
    f1 = (pens.map (fun cp => (cp.1, cp.2.at i))).map (fun cp : ℚ × ℚ => 1 + cp.1 * cp.2) := by
  rw [List.map_map]
  induction hF with
  | nil => rfl
  | cons hab _ ih =>
    rename_i cp f ps fs _
    rw [List.map_cons, ← ih (fun cp hcp => hp cp (by simp [hcp]))]
    congr 1
    unfold penFactorAt at hab
    simp only [Function.comp_apply]
    split at hab
    · rename_i hq
      simp only [Except.ok.injEq] at hab
      rw [← hab, hq]; simp [Pen.at]
    · simp at hab
    · rename_i l hq
      have hlen := hp cp (by simp) l hq
      simp only [bind_ok, pure, Except.pure, Except.ok.injEq] at hab
      obtain ⟨p, hp1, rfl⟩ := hab
      rw [pyGet_eq_ok] at hp1
      have hidx : (if l.length > 1 then i else 0) = i := by
        split
        · rfl
        · omega
      rw [hidx] at hp1
      rw [hq]
      simp [Pen.at, hp1]

theorem penFactorIdx_list (i : Nat) (pens : List (ℚ × Pen)) (f1 : List ℚ)
    (hF : List.Forall₂ (fun x y => penFactorIdx i x = Except.ok y) pens f1) :
    f1 = (pens.map (fun cp => (cp.1, cp.2.at i))).map (fun cp : ℚ × ℚ => 1 + cp.1 * cp.2) := by
  rw [List.map_map]
  induction hF with
  | nil => rfl
  | cons hab _ ih =>
    rename_i cp f ps fs _
    rw [List.map_cons, ← ih]
    congr 1
    unfold penFactorIdx at hab
    simp only [Function.comp_apply]
    split at hab
    · rename_i hq
      simp only [Except.ok.injEq] at hab
      rw [← hab, hq]; simp [Pen.at]
    · simp at hab
    · rename_i l hq
      simp only [bind_ok, pure, Except.pure, Except.ok.injEq] at hab
      obtain ⟨p, hp1, rfl⟩ := hab
      rw [pyGet_eq_ok] at hp1
      rw [hq]
      simp [Pen.at, hp1]

/-- During the repair panels not designed yet have no objective: they are left out of the sum, the
others count as before. -/
theorem C23_multi_panel_nones (weights : List ℚ) (objective : List (Option ℚ))
    (pens idxPens : List (ℚ × Pen)) (r : ℚ)
    (hp : ∀ cp ∈ pens, ∀ l, cp.2 = .arr l → l.length = weights.length)
    (h : objMultiPanelNones weights objective pens idxPens = .ok r) :
    r = ∑ i ∈ Finset.range weights.length, (match objective.getD i none with
      | none => 0
      | some o => penalised (weights.getD i 0) o
          ((pens ++ idxPens).map (fun cp => (cp.1, cp.2.at i)))) := by
  unfold objMultiPanelNones at h
  simp only [bind_ok] at h
  obtain ⟨ts, hts, hr⟩ := h
  simp only [pure, Except.pure, Except.ok.injEq] at hr
  have hinv := mapM_inv _ _ _ hts
  rw [← hr]
  have hts2 : ts = (List.range weights.length).map (fun i => match objective.getD i none with
      | none => 0
      | some o => penalised (weights.getD i 0) o
          ((pens ++ idxPens).map (fun cp => (cp.1, cp.2.at i)))) := by
    rw [← List.forall₂_eq_eq_eq, List.forall₂_map_right_iff]
    refine (List.Forall₂.flip ?_)
    have hmem : ∀ i ∈ List.range weights.length, i < weights.length := fun i hi => List.mem_range.1 hi
    revert hmem
    clear hr hts
    generalize List.range weights.length = is at hinv
    intro hmem
    induction hinv with
    | nil => exact .nil
    | cons hab _ ih =>
      refine .cons ?_ (ih (fun i hi => hmem i (by simp [hi])))
      rename_i i t is' ts' _
      have hi : i < weights.length := hmem i (by simp)
      rw [bind_ok] at hab
      obtain ⟨o, ho, hab⟩ := hab
      rw [pyGet_eq_ok] at ho
      unfold flip; beta_reduce
      rw [List.getD_eq_getElem?_getD (l := objective), ho, Option.getD_some]
      cases o with
      | none => simp only [pure, Except.pure, Except.ok.injEq] at hab; exact hab.symm
      | some o =>
        simp only [bind_ok] at hab
        obtain ⟨w, hw, f1, hf1, f2, hf2, hfin⟩ := hab
        simp only [pure, Except.pure, Except.ok.injEq] at hfin
        rw [pyGet_eq_ok] at hw
        simp only
        rw [← hfin, foldl_mul_eq, foldl_mul_eq]
        unfold penalised
        rw [List.getD_eq_getElem?_getD, hw, Option.getD_some, List.map_append, List.map_append,
          List.prod_append, mul_assoc]
        have e1 := penFactorAt_list i hi pens f1 hp (mapM_inv _ _ _ hf1)
        have e2 := penFactorIdx_list i idxPens f2 (mapM_inv _ _ _ hf2)
        rw [e1, e2]
  rw [hts2, list_sum_range]

/-- C23: the penalised objective of one laminate is the objective multiplied by `1 + coefficient * penalty` for
each of the guidelines, each penalty with its own coefficient. -/
theorem C23_one_laminate (objective p10 pBal pOopo c10 cBal cOopo : ℚ) :
    objMultiSs objective p10 pBal pOopo c10 cBal cOopo =
      objective * ([(c10, p10), (cBal, pBal), (cOopo, pOopo)].map (fun x : ℚ × ℚ => 1 + x.1 * x.2)).prod := by
  unfold objMultiSs
  simp only [List.map_cons, List.map_nil, List.prod_cons, List.prod_nil]
  ring

/-- C23: with non-negative coefficients and penalties it is at least the objective, and for a positive objective it is equal to
it exactly when every penalty with a non-zero coefficient vanishes. -/
theorem C23_one_laminate_bound (objective p10 pBal pOopo c10 cBal cOopo : ℚ) (ho : 0 ≤ objective)
    (h1 : 0 ≤ p10) (h2 : 0 ≤ pBal) (h3 : 0 ≤ pOopo) (h4 : 0 ≤ c10) (h5 : 0 ≤ cBal) (h6 : 0 ≤ cOopo) :
    objective ≤ objMultiSs objective p10 pBal pOopo c10 cBal cOopo ∧
    (0 < objective → (objMultiSs objective p10 pBal pOopo c10 cBal cOopo = objective ↔
      (c10 = 0 ∨ p10 = 0) ∧ (cBal = 0 ∨ pBal = 0) ∧ (cOopo = 0 ∨ pOopo = 0))) := by
  have a1 := mul_nonneg h4 h1
  have a2 := mul_nonneg h5 h2
  have a3 := mul_nonneg h6 h3
  have e : objMultiSs objective p10 pBal pOopo c10 cBal cOopo - objective =
      objective * (c10 * p10 + cBal * pBal + cOopo * pOopo + (c10 * p10) * (cBal * pBal) +
        (c10 * p10) * (cOopo * pOopo) + (cBal * pBal) * (cOopo * pOopo) + (c10 * p10) * (cBal * pBal) * (cOopo * pOopo)) := by
    unfold objMultiSs
    ring
  have b1 := mul_nonneg a1 a2
  have b2 := mul_nonneg a1 a3
  have b3 := mul_nonneg a2 a3
  have b4 := mul_nonneg b1 a3
  refine ⟨?_, fun hp => ?_⟩
  · have := mul_nonneg ho (add_nonneg (add_nonneg (add_nonneg (add_nonneg (add_nonneg (add_nonneg a1 a2) a3) b1) b2) b3) b4)
    rw [← e] at this
    linarith
  · rw [← sub_eq_zero, e, mul_eq_zero, or_iff_right hp.ne', ← mul_eq_zero, ← mul_eq_zero, ← mul_eq_zero]
    constructor
    · intro h
      refine ⟨?_, ?_, ?_⟩ <;> linarith
    · rintro ⟨h, h', h''⟩
      rw [h, h', h'']
      ring

example : objMultiSs 2 (1 / 2) 0 1 1 5 3 = 12 := by decide +kernel

/-- The default penalties (the number 0) are accepted without `with_Nones` but raise with it. -/
theorem C23_default_penalty_violation :
    objMultiPanel [1] [2] [(0, .num 0)] = .ok 2 ∧
      objMultiPanelNones [1] [some 2] [(0, .num 0)] [] = .error .typeError := by decide +kernel

/-- Every `ObjFunction` that can be built has non-negative coefficients, those of disabled guidelines
being zero and the others those requested; building fails exactly for a negative coefficient of an
enabled guideline or a non-positive number of buckling modes. -/
theorem C51_coefficients (s : ObjSwitches) (cDiso cContig c10 cBal cOopo cSpacing : ℚ) (nModes : Int)
    (o : ObjCoeffs) :
    mkObjFunction s cDiso cContig c10 cBal cOopo cSpacing nModes = .ok o ↔
      1 ≤ nModes ∧ (s.rule10 → 0 ≤ c10) ∧ (s.bal → 0 ≤ cBal) ∧ (s.oopo → 0 ≤ cOopo) ∧
      (s.contig → 0 ≤ cContig) ∧ (s.diso → 0 ≤ cDiso) ∧ (s.pdlSpacing → 0 ≤ cSpacing) ∧
      o = { nModes := nModes
            c10 := if s.rule10 then c10 else 0
            cBal := if s.bal then cBal else 0
            cOopo := if s.oopo then cOopo else 0
            cContig := if s.contig then cContig else 0
            cDiso := if s.diso then cDiso else 0
            cSpacing := if s.pdlSpacing then cSpacing else 0 } := by
  have key : ∀ (on : Bool) (c : ℚ) (m : String) (r : ℚ),
      objCoeff on c m = .ok r ↔ (on → 0 ≤ c) ∧ r = if on then c else 0 := by
    intro on c m r
    unfold objCoeff
    cases on
    · simp [eq_comm]
    · by_cases h : c < 0
      · simp [h]
      · have : 0 ≤ c := not_lt.1 h
        simp [h, this, eq_comm]
  unfold mkObjFunction
  simp only [bind_ok, key, pure, Except.pure, Except.ok.injEq]
  constructor
  · rintro ⟨_, h0, a1, ⟨h1, rfl⟩, a2, ⟨h2, rfl⟩, a3, ⟨h3, rfl⟩, a4, ⟨h4, rfl⟩, a5, ⟨h5, rfl⟩, a6,
      ⟨h6, rfl⟩, rfl⟩
    refine ⟨?_, h1, h2, h3, h4, h5, h6, rfl⟩
    by_contra hn
    rw [if_pos (by omega)] at h0
    simp at h0
  · rintro ⟨h0, h1, h2, h3, h4, h5, h6, rfl⟩
    exact ⟨(), by rw [if_neg (by omega)], _, ⟨h1, rfl⟩, _, ⟨h2, rfl⟩, _, ⟨h3, rfl⟩, _, ⟨h4, rfl⟩, _,
      ⟨h5, rfl⟩, _, ⟨h6, rfl⟩, rfl⟩

/-- Hence every coefficient of an `ObjFunction` is non-negative, as `C23_monotone` requires. -/
theorem C51_nonneg (s : ObjSwitches) (cDiso cContig c10 cBal cOopo cSpacing : ℚ) (nModes : Int)
    (o : ObjCoeffs) (h : mkObjFunction s cDiso cContig c10 cBal cOopo cSpacing nModes = .ok o) :
    0 ≤ o.c10 ∧ 0 ≤ o.cBal ∧ 0 ≤ o.cOopo ∧ 0 ≤ o.cContig ∧ 0 ≤ o.cDiso ∧ 0 ≤ o.cSpacing := by
  rw [C51_coefficients] at h
  obtain ⟨_, h1, h2, h3, h4, h5, h6, rfl⟩ := h
  simp only
  have : ∀ (on : Bool) (c : ℚ), (on → 0 ≤ c) → 0 ≤ (if on then c else 0 : ℚ) := by
    intro on c hc
    cases on
    · simp
    · simpa using hc rfl
  exact ⟨this _ _ h1, this _ _ h2, this _ _ h3, this _ _ h4, this _ _ h5, this _ _ h6⟩

example : ∃ o, mkObjFunction ⟨true, false, true, true, true, true⟩ 1 1 (1/2) (-3) 1 0 1 = .ok o ∧
    o.cBal = 0 := ⟨⟨1, 1/2, 0, 1, 1, 1, 0⟩, by decide +kernel⟩

end Bella
