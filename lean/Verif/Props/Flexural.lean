import Verif.Props.RepairDisoContig
import Verif.Spec.Flexural
import Verif.Proofs.FlexuralLoop
/-
C31: the flexural refinement by moving plies (`repair_flexural_2`, which checks the lay-up rules, and
`repair_flexural_3`, which does not).

`D.cs a k` is the value tabulated for the `k`-th trigonometric function (cos 2a, cos 4a, sin 2a, sin 4a)
of the ply angle `a`; nothing is assumed about it.  `keptPlies c attr` is the number of plies (0, 1 or 2)
protected on each face.
-/
namespace Bella

theorem slice_zero_full (ss : Stack) : slice ss 0 (ss.length - 0) = ss := by
  simp [slice]

/-- C31: `repair_flexural_2` with at least one candidate per step (`n_D2 ≥ 2`) terminates normally on every laminate whose
objective does not exceed the value `1e10` used for rejected candidates.  It returns the same plies in a
possibly different order, a symmetric laminate if the constraint is set, the protected plies of the two
faces and the middle ply of an odd symmetric laminate in their places; either nothing has changed or the
objective is smaller by more than 1e-20; disorientation and contiguity are satisfied if they were. -/
theorem C31_flexural_moves {c : Cons} (hc : ContigCons c) (attr : DamTolAttr) (D : FlexData) {nD2 : Nat}
    (hn : 2 ≤ nD2) {ss : Stack} (hs : c.sym = true → Spec.Symmetric ss)
    (h0 : Spec.flexObjective D.cs D.coeffs D.target ss ≤ 10 ^ 10) :
    ∃ res, repairFlexural2 c attr D nD2 ss = .ok res ∧ res.Perm ss ∧
      (c.sym = true → Spec.Symmetric res) ∧
      res.take (keptPlies c attr) = ss.take (keptPlies c attr) ∧
      res.drop (ss.length - keptPlies c attr) = ss.drop (ss.length - keptPlies c attr) ∧
      (c.sym = true → ss.length % 2 = 1 → res[ss.length / 2]? = ss[ss.length / 2]?) ∧
      (res = ss ∨ Spec.flexObjective D.cs D.coeffs D.target res + 1 / 10 ^ 20
        < Spec.flexObjective D.cs D.coeffs D.target ss) ∧
      (c.diso = true → InRange ss → Spec.DisoOK c.deltaAngle ss → Spec.DisoOK c.deltaAngle res) ∧
      (c.contig = true → Spec.ContigOK c.nContig ss → Spec.ContigOK c.nContig res) := by
  obtain ⟨res, e, h1, h2, h3, h4, h5, h6, h7, h8⟩ := flexMain_spec (rules := true) hc attr D (fun _ => hn) hs h0
  have hl := h1.length_eq
  refine ⟨res, e, h1, h2, h3, h4, ?_, h6, ?_, ?_⟩
  · intro hsy ho
    have := h5 hsy ho
    rw [nth_eq_getElem _ _ (by omega), nth_eq_getElem _ _ (by omega)] at this
    rw [List.getElem?_eq_getElem (by omega), List.getElem?_eq_getElem (by omega), this]
  · intro hd hr hp
    rw [disoOK_iff_pairs, hl]
    exact h7 rfl hd hr 0 (by omega) ((disoOK_iff_pairs _ _).1 hp)
  · intro hd hp
    have := h8 rfl hd 0 (by omega) (by rwa [slice_zero_full])
    rwa [← hl, slice_zero_full] at this

/-- C31: with protected outer plies, the rules of the laminate without one or two of the protected plies on
each face are kept too (the pair of outer ±45 plies may break the disorientation rule). -/
theorem C31_flexural_moves_inner {c : Cons} (hc : ContigCons c) (attr : DamTolAttr) (D : FlexData) {nD2 : Nat}
    (hn : 2 ≤ nD2) {ss res : Stack} (hs : c.sym = true → Spec.Symmetric ss)
    (h0 : Spec.flexObjective D.cs D.coeffs D.target ss ≤ 10 ^ 10)
    (hr : repairFlexural2 c attr D nD2 ss = .ok res) {lo : Nat} (hlo : lo ≤ keptPlies c attr) :
    (c.diso = true → InRange ss → Spec.PairsWithin c.deltaAngle ss lo (ss.length - 1 - lo) →
        Spec.PairsWithin c.deltaAngle res lo (res.length - 1 - lo)) ∧
    (c.contig = true → Spec.ContigOK c.nContig ((ss.drop lo).take (ss.length - 2 * lo)) →
        Spec.ContigOK c.nContig ((res.drop lo).take (res.length - 2 * lo))) := by
  obtain ⟨res', e, h1, h2, h3, h4, h5, h6, h7, h8⟩ := flexMain_spec (rules := true) hc attr D (fun _ => hn) hs h0
  have : res' = res := by
    have := e.symm.trans hr
    exact Except.ok.inj this
  subst this
  have hl := h1.length_eq
  have hsl : ∀ l : Stack, slice l lo (l.length - lo) = (l.drop lo).take (l.length - 2 * lo) := by
    intro l
    unfold slice
    rw [List.drop_take]
    congr 1
    omega
  refine ⟨?_, ?_⟩
  · intro hd hr hp
    rw [hl]
    exact h7 rfl hd hr lo hlo hp
  · intro hd hp
    have := h8 rfl hd lo hlo (by rw [hsl]; exact hp)
    rw [← hl, hsl] at this
    exact this

/-- C31: `repair_flexural_3` likewise, without the lay-up rules, whatever the number of candidates. -/
theorem C31_flexural_redesign {c : Cons} (hc : ContigCons c) (attr : DamTolAttr) (D : FlexData) (nD2 : Nat)
    {ss : Stack} (hs : c.sym = true → Spec.Symmetric ss)
    (h0 : Spec.flexObjective D.cs D.coeffs D.target ss ≤ 10 ^ 10) :
    ∃ res, repairFlexural3 c attr D nD2 ss = .ok res ∧ res.Perm ss ∧
      (c.sym = true → Spec.Symmetric res) ∧
      res.take (keptPlies c attr) = ss.take (keptPlies c attr) ∧
      res.drop (ss.length - keptPlies c attr) = ss.drop (ss.length - keptPlies c attr) ∧
      (c.sym = true → ss.length % 2 = 1 → res[ss.length / 2]? = ss[ss.length / 2]?) ∧
      (res = ss ∨ Spec.flexObjective D.cs D.coeffs D.target res + 1 / 10 ^ 20
        < Spec.flexObjective D.cs D.coeffs D.target ss) := by
  obtain ⟨res, e, h1, h2, h3, h4, h5, h6, h7, h8⟩ := flexMain_spec (rules := false) (nD2 := nD2) hc attr D
    (by simp) hs h0
  have hl := h1.length_eq
  refine ⟨res, e, h1, h2, h3, h4, ?_, h6⟩
  · intro hsy ho
    have := h5 hsy ho
    rw [nth_eq_getElem _ _ (by omega), nth_eq_getElem _ _ (by omega)] at this
    rw [List.getElem?_eq_getElem (by omega), List.getElem?_eq_getElem (by omega), this]

/-- C31 (failure): the parameter `n_D2` is accepted by the constructor of `Parameters` for any integer, but with
`n_D2 = 1` (or 0) `repair_flexural_2` raises `ValueError` (minimum of an empty array) on every laminate with at least two
plies free to move. -/
theorem C31_flexural_moves_small_n_D2 (c : Cons) (attr : DamTolAttr) (D : FlexData) {nD2 : Nat}
    (hn : nD2 ≤ 1) {ss : Stack}
    (hlen : 2 ≤ (if c.sym then ss.length / 2 - keptPlies c attr else ss.length - 2 * keptPlies c attr)) :
    repairFlexural2 c attr D nD2 ss = .error .valueError := by
  have hind : 2 ≤ (flexInd ss.length c attr).length := by
    unfold flexInd
    unfold keptPlies at hlen
    have hil : (flexMix (slice (List.range ss.length) (ss.length / 2) ss.length).reverse
        (slice (List.range ss.length) 0 (ss.length / 2))).length = ss.length := by
      have : ∀ (A B : List Nat), (flexMix A B).length = A.length + B.length := by
        intro A
        induction A with
        | nil => intro B; simp [flexMix]
        | cons x A ih =>
          intro B
          cases B with
          | nil => simp [flexMix]
          | cons y B => simp [flexMix, ih]; omega
      rw [this]
      simp [slice]
      omega
    split_ifs at hlen ⊢ <;> simp_all
  obtain ⟨k, hk⟩ : ∃ k, (flexInd ss.length c attr).length - 1 = k + 1 :=
    ⟨(flexInd ss.length c attr).length - 2, by omega⟩
  have hsl : slice (flexInd ss.length c attr) (0 + 1) (if true = true then 0 + nD2 else 0 + 2 + nD2) = [] := by
    rw [if_pos rfl]
    unfold slice
    apply List.eq_nil_of_length_eq_zero
    simp
    omega
  have hstep : ∀ areas mid s, flexStep true c D nD2 (flexInd ss.length c attr) areas mid 0 s
      = .error .valueError := by
    intro areas mid s
    unfold flexStep
    dsimp only
    rw [hsl, flexTries]
    simp [bind, Except.bind, show nD2 - 1 = 0 by omega]
    rfl
  unfold repairFlexural2 flexMain
  dsimp only
  rw [hk, flexLoop, hstep]
  rfl

/-! ### concrete cases -/

/-- cos 2a, cos 4a, sin 2a, sin 4a for the angles 0, 90, 45, -45. -/
def exCS (a : Int) (k : Nat) : ℚ :=
  match k with
  | 0 => if a = 0 then 1 else if a = 90 then -1 else 0
  | 1 => if a = 0 ∨ a = 90 then 1 else -1
  | 2 => if a = 45 then 1 else if a = -45 then -1 else 0
  | _ => 0

/-- Targets 1, 1, 0, 0 (all the stiffness along 0) with equal weights. -/
def exFlex : FlexData :=
  { cs := exCS, coeffs := fun _ => 1 / 3, target := fun k => if k < 2 then 1 else 0 }

def exFlexArgs : ConsArgs :=
  { sym := true, diso := true, deltaAngle := 45, contig := true, nContig := 2, damTol := true, damTolRule := 1 }

/-- A symmetric laminate that satisfies the rules and the hypotheses of `C31_flexural_moves`; its plies are moved: the
outer plies stay, the objective decreases, the rules are kept. -/
example : ∃ c, mkConstraints exFlexArgs = .ok c ∧ ContigCons c ∧ c.sym = true ∧ c.diso = true ∧ c.contig = true ∧
    keptPlies c c.damTolAttr = 1 ∧
    repairFlexural2 c c.damTolAttr exFlex 10 [45, 45, 0, 45, 90, 45, 0, 45, 45] =
      .ok [45, 0, 45, 45, 90, 45, 45, 0, 45] := by
  obtain ⟨c, hc, ht⟩ := ok_of_test (mkConstraints exFlexArgs) (fun (c : Cons) => decide (ContigCons c ∧ c.sym = true ∧
    c.diso = true ∧ c.contig = true ∧ keptPlies c c.damTolAttr = 1 ∧
    repairFlexural2 c c.damTolAttr exFlex 10 [45, 45, 0, 45, 90, 45, 0, 45, 45] =
      .ok [45, 0, 45, 45, 90, 45, 45, 0, 45])) (by decide +kernel)
  exact ⟨c, hc, of_decide_eq_true ht⟩

example : Spec.flexObjective exFlex.cs exFlex.coeffs exFlex.target [45, 45, 0, 45, 90, 45, 0, 45, 45] ≤ 10 ^ 10 := by
  decide +kernel

/-- Without the rules (asymmetric laminate, one protected ply on each face). -/
example : ∃ c, mkConstraints { exFlexArgs with sym := false } = .ok c ∧ ContigCons c ∧
    repairFlexural3 c c.damTolAttr exFlex 10 [45, 90, 90, 45, 0, 0, 45, 90, 90, 45] =
      .ok [45, 0, 90, 90, 45, 45, 90, 90, 0, 45] ∧
    repairFlexural2 c c.damTolAttr exFlex 1 [45, 90, 90, 45, 0, 0, 45, 90, 90, 45] = .error .valueError := by
  obtain ⟨c, hc, ht⟩ := ok_of_test (mkConstraints { exFlexArgs with sym := false }) (fun (c : Cons) =>
    decide (ContigCons c ∧ repairFlexural3 c c.damTolAttr exFlex 10 [45, 90, 90, 45, 0, 0, 45, 90, 90, 45] =
      .ok [45, 0, 90, 90, 45, 45, 90, 90, 0, 45] ∧
    repairFlexural2 c c.damTolAttr exFlex 1 [45, 90, 90, 45, 0, 0, 45, 90, 90, 45] = .error .valueError))
    (by decide +kernel)
  exact ⟨c, hc, of_decide_eq_true ht⟩

end Bella
