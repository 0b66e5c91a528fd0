import Verif.Props.Panels
import Verif.Props.Constraints
import Mathlib.Algebra.BigOperators.Ring.Finset
import Mathlib.Tactic.Ring
import Mathlib.Tactic.FieldSimp
/-
C65: the lamination parameters whose weighting is dropped vanish for every laminate allowed by the guidelines; weights.
-/
namespace Bella

open Spec

theorem heightR_reflect (n i : Nat) (hn : 0 < n) (hi : i ≤ n) : heightR n (n - i) = - heightR n i := by
  have h : (n : ℝ) ≠ 0 := by exact_mod_cast hn.ne'
  unfold heightR
  rw [Nat.cast_sub hi]
  field_simp
  ring

theorem sym_coupling_zero (ss : List ℤ) (hs : Spec.Symmetric ss) (f : ℤ → ℝ) :
    ∑ i ∈ Finset.range ss.length, f (ss.getD i 0) * (heightR ss.length (i + 1) ^ 2 - heightR ss.length i ^ 2) = 0 := by
  rcases Nat.eq_zero_or_pos ss.length with h0 | hpos
  · rw [h0]; simp
  have e := Finset.sum_range_reflect (fun i => f (ss.getD i 0) * (heightR ss.length (i + 1) ^ 2 - heightR ss.length i ^ 2)) ss.length
  have e2 : ∑ j ∈ Finset.range ss.length, f (ss.getD (ss.length - 1 - j) 0) *
      (heightR ss.length (ss.length - 1 - j + 1) ^ 2 - heightR ss.length (ss.length - 1 - j) ^ 2) =
      - ∑ i ∈ Finset.range ss.length, f (ss.getD i 0) * (heightR ss.length (i + 1) ^ 2 - heightR ss.length i ^ 2) := by
    rw [← Finset.sum_neg_distrib]
    apply Finset.sum_congr rfl
    intro j hj
    have hj := Finset.mem_range.1 hj
    have g : ss.getD (ss.length - 1 - j) 0 = ss.getD j 0 := by
      have : ss.reverse[j]? = ss[j]? := by rw [hs]
      rw [List.getElem?_reverse hj] at this
      rw [List.getD_eq_getElem?_getD, List.getD_eq_getElem?_getD, this]
    have h1 : ss.length - 1 - j + 1 = ss.length - j := by omega
    have h2 : ss.length - 1 - j = ss.length - (j + 1) := by omega
    rw [g, h1, h2, heightR_reflect _ _ hpos (by omega), heightR_reflect _ _ hpos (by omega)]
    ring
  rw [e] at e2
  linarith

theorem balanced_sum_zero (ss : List ℤ) (hb : Balanced ss) (f : ℤ → ℝ) (hodd : ∀ a, f (-a) = - f a)
    (h0 : f 0 = 0) (h90 : f 90 = 0) : (ss.map f).sum = 0 := by
  have h90' : f (-90) = 0 := by rw [hodd, h90, neg_zero]
  let F : Finset ℤ := ss.toFinset ∪ ss.toFinset.image (fun a => -a)
  have hF : ∀ a, a ∈ F ↔ -a ∈ F := by
    intro a
    simp only [F, Finset.mem_union, Finset.mem_image, List.mem_toFinset]
    constructor
    · rintro (h | ⟨b, hb, rfl⟩)
      · exact Or.inr ⟨a, h, rfl⟩
      · left; simpa using hb
    · rintro (h | ⟨b, hb, hab⟩)
      · exact Or.inr ⟨-a, h, by simp⟩
      · left
        have : b = a := by linarith
        rwa [← this]
  have e1 : (ss.map f).sum = ∑ a ∈ F, (ss.count a : ℝ) * f a := by
    rw [Finset.sum_list_map_count]
    simp only [nsmul_eq_mul]
    apply Finset.sum_subset Finset.subset_union_left
    intro a _ ha
    rw [List.mem_toFinset] at ha
    rw [List.count_eq_zero.2 ha]
    simp
  have e2 : ∑ a ∈ F, (ss.count a : ℝ) * f a = ∑ a ∈ F, (ss.count (-a) : ℝ) * f (-a) :=
    Finset.sum_nbij' (fun a => -a) (fun a => -a) (fun a ha => (hF a).1 ha) (fun a ha => (hF a).1 ha)
      (fun a _ => neg_neg a) (fun a _ => neg_neg a) (fun a _ => by rw [neg_neg])
  have e3 : ∑ a ∈ F, (ss.count (-a) : ℝ) * f (-a) = - ∑ a ∈ F, (ss.count a : ℝ) * f a := by
    rw [← Finset.sum_neg_distrib]
    apply Finset.sum_congr rfl
    intro a _
    by_cases c0 : a = 0
    · subst c0; simp [h0]
    by_cases c1 : a = 90
    · subst c1; rw [h90', h90]; simp
    by_cases c2 : a = -90
    · subst c2; rw [neg_neg, h90', h90]; simp
    · rw [hodd, hb a c0 c1 c2]; ring
  rw [e1]
  rw [e3] at e2
  linarith

theorem sum_getD (ss : List ℤ) (f : ℤ → ℝ) : ∑ i ∈ Finset.range ss.length, f (ss.getD i 0) = (ss.map f).sum := by
  induction ss with
  | nil => rfl
  | cons a t ih =>
    rw [List.length_cons, Finset.sum_range_succ', List.map_cons, List.sum_cons, ← ih]
    simp [add_comm]

theorem trig_two (a : ℤ) : trig 2 a = Real.sin (2 * (a * Real.pi / 180)) := rfl

theorem trig_three (a : ℤ) : trig 3 a = Real.sin (4 * (a * Real.pi / 180)) := rfl

theorem trig_std (a : ℤ) (h : a = 0 ∨ a = 45 ∨ a = -45 ∨ a = 90) : trig 3 a = 0 := by
  rw [trig_three]
  rcases h with rfl | rfl | rfl | rfl
  · simp
  · rw [show 4 * (((45 : ℤ) : ℝ) * Real.pi / 180) = Real.pi by push_cast; ring, Real.sin_pi]
  · rw [show 4 * (((-45 : ℤ) : ℝ) * Real.pi / 180) = -Real.pi by push_cast; ring, Real.sin_neg, Real.sin_pi, neg_zero]
  · rw [show 4 * (((90 : ℤ) : ℝ) * Real.pi / 180) = 2 * Real.pi by push_cast; ring, Real.sin_two_pi]

theorem trig_odd (k : Nat) (hk : k = 2 ∨ k = 3) : (∀ a, trig k (-a) = - trig k a) ∧ trig k 0 = 0 ∧ trig k 90 = 0 := by
  rcases hk with rfl | rfl
  · refine ⟨fun a => ?_, by simp [trig_two], ?_⟩
    · rw [trig_two, trig_two, ← Real.sin_neg]
      congr 1
      push_cast
      ring
    · rw [trig_two, show 2 * (((90 : ℤ) : ℝ) * Real.pi / 180) = Real.pi by push_cast; ring, Real.sin_pi]
  · refine ⟨fun a => ?_, by simp [trig_three], trig_std 90 (by tauto)⟩
    rw [trig_three, trig_three, ← Real.sin_neg]
    congr 1
    push_cast
    ring

/-- C65: the lamination parameters whose weightings the filter drops are zero for every laminate whose plies have
the angles of the constraints and that is symmetric, balanced when this is requested. -/
theorem C65_dropped_vanish (c : Cons) (ss : List ℤ) (k : Nat) (hang : ∀ x ∈ ss, x ∈ c.angles)
    (hsym : c.sym = true → Spec.Symmetric ss) (hbal : c.bal = true → Balanced ss) (hv : Vanish c k) :
    lampamR ss k = 0 := by
  unfold lampamR
  have std : c.standardAngles = true → ∀ (i : Nat), trig 3 (ss.getD i 0) = 0 := by
    intro hc i
    have hs := (standardAngles_iff c).1 hc
    apply trig_std
    rw [List.getD_eq_getElem?_getD]
    cases h : ss[i]? with
    | none => simp
    | some x => exact (hs x).1 (hang x (List.mem_of_getElem? h))
  have bal : c.bal = true → ∀ j, (j = 2 ∨ j = 3) → ∑ i ∈ Finset.range ss.length, trig j (ss.getD i 0) *
      (heightR ss.length (i + 1) ^ 1 - heightR ss.length i ^ 1) = 0 := by
    intro hc j hj
    obtain ⟨t1, t2, t3⟩ := trig_odd j hj
    have z := balanced_sum_zero ss (hbal hc) (trig j) t1 t2 t3
    have e : ∀ i : Nat, heightR ss.length (i + 1) ^ 1 - heightR ss.length i ^ 1 = 2 / ss.length := by
      intro i
      unfold heightR
      push_cast
      ring
    simp only [e]
    rw [← Finset.sum_mul, sum_getD, z, zero_mul]
  rcases hv with ⟨h, hk⟩ | ⟨h, hk⟩ | ⟨h, hk⟩
  · have : k / 4 + 1 = 2 := by omega
    rw [this, sym_coupling_zero ss (hsym h), zero_div]
  · have : k % 4 = 3 := by omega
    rw [this]
    simp only [std h, zero_mul, Finset.sum_const_zero, zero_div]
  · have e1 : k / 4 + 1 = 1 := by omega
    have e2 : k % 4 = k := by omega
    rw [e1, e2, bal h k hk, zero_div]

/-- C65: the weight of a structure computed from a stacking sequence table in which every panel has as many plies as it
should is the weight computed from the numbers of plies. -/
theorem C65_weight (density : ℚ) (panels : List Panel) (sst : List (List Int)) (hl : panels.length ≤ sst.length)
    (hp : ∀ (i : Nat) (p : Panel) (row : List Int), panels[i]? = some p → sst[i]? = some row →
      (row.filter (fun (x : Int) => x ≠ -1)).length = p.nPlies) :
    weightFromSst density panels sst = .ok (structureWeight density panels) ∧
    (0 ≤ density → (∀ p ∈ panels, 0 ≤ p.area) → 0 ≤ structureWeight density panels) := by
  constructor
  · unfold weightFromSst structureWeight
    have e := mapM_ok (fun (p : Panel × Nat) => (do
      let row ← pyGet sst p.2
      return p.1.area * (row.countP (fun (x : Int) => x != -1) : ℚ) : Py ℚ))
      (fun p => p.1.area * (p.1.nPlies : ℚ)) panels.zipIdx (by
        rintro ⟨p, i⟩ hx
        have hi := List.mem_zipIdx_iff_getElem?.1 hx
        dsimp only at hi
        have hi2 : i < panels.length := by
          by_contra hc
          rw [List.getElem?_eq_none (by omega)] at hi
          cases hi
        have hi3 : i < sst.length := by omega
        dsimp only
        rw [pyGet_ok hi3]
        simp only [bind, Except.bind, pure, Except.pure]
        have := hp i p sst[i] hi (List.getElem?_eq_getElem hi3)
        rw [List.countP_eq_length_filter, ← this]
        congr 4
        apply List.filter_congr
        intro x _
        rw [Bool.eq_iff_iff]
        simp)
    rw [e]
    simp only [bind, Except.bind, pure, Except.pure]
    congr 3
    conv_rhs => rw [← List.zipIdx_map_fst 0 panels, List.map_map]
    rfl
  · intro hd ha
    apply mul_nonneg hd
    apply List.sum_nonneg
    intro x hx
    obtain ⟨p, hp, rfl⟩ := List.mem_map.1 hx
    exact mul_nonneg (ha p hp) (by positivity)

/-! ### The hypotheses are met -/

/-- Symmetric, balanced laminates of 0, ±45 and 90 degree plies with out-of-plane orthotropy. -/
def panelArgs : ConsArgs := { sym := true, bal := true, oopo := true, setOfAngles := [0, 45, 90, -45] }

example : ∃ c, mkConstraints panelArgs = .ok c ∧ c.sym = true ∧ c.bal = true ∧ c.standardAngles = true ∧
    filterWeights c (1 / 2) [1, 1, 7, 7, 7, 7, 7, 7, 3, 3, 9, 9] =
      .ok (some [1 / 9, 1 / 9, 0, 0, 0, 0, 0, 0, 3 / 9, 3 / 9, 1 / 9, 0]) ∧
    filterTarget c [1, 1, 7, 7, 7, 7, 7, 7, 3, 3, 9, 9] = .ok [1, 1, 0, 0, 0, 0, 0, 0, 3, 3, 0, 0] ∧
    filterWeights c (1 / 2) [0, 0, 1, 1, 1, 1, 1, 1, 0, 0, 1, 1] = .ok none ∧
    (∀ x ∈ [45, -45, 0, 90, 90, 0, -45, 45], x ∈ c.angles) ∧ Spec.Symmetric [45, -45, 0, 90, 90, 0, -45, 45] := by
  obtain ⟨c, h1, h2⟩ := ok_of_test (mkConstraints panelArgs) (fun c => c.sym && c.bal && c.standardAngles &&
    (filterWeights c (1 / 2) [1, 1, 7, 7, 7, 7, 7, 7, 3, 3, 9, 9] ==
      .ok (some [1 / 9, 1 / 9, 0, 0, 0, 0, 0, 0, 3 / 9, 3 / 9, 1 / 9, 0])) &&
    (filterTarget c [1, 1, 7, 7, 7, 7, 7, 7, 3, 3, 9, 9] == .ok [1, 1, 0, 0, 0, 0, 0, 0, 3, 3, 0, 0]) &&
    (filterWeights c (1 / 2) [0, 0, 1, 1, 1, 1, 1, 1, 0, 0, 1, 1] == .ok none) &&
    [45, -45, 0, 90, 90, 0, -45, 45].all (fun x => c.angles.contains x)) (by decide +kernel)
  simp only [Bool.and_eq_true, beq_iff_eq] at h2
  obtain ⟨⟨⟨⟨⟨⟨a1, a2⟩, a3⟩, a4⟩, a5⟩, a6⟩, a7⟩ := h2
  refine ⟨c, h1, a1, a2, a3, a4, a5, a6, ?_, by unfold Spec.Symmetric; decide +kernel⟩
  simpa using a7

example : weightFromSst 2 [⟨3, true, 2, [], [], 5, 1⟩, ⟨2, false, 0, [], [], 1, 1⟩] [[0, 90, 0], [0, -1, 0]] = .ok 34 := by
  decide +kernel

end Bella
