import Verif.Props.Flexural
import Verif.Props.Contig
import Verif.Props.Diso
import Verif.Props.Balance
import Verif.Proofs.FlexuralSwapLoop
/-
C32: the flexural refinement by swapping blocks of plies, `repair_flexural_1`.

`lampamOf` stands for `calc_lampamD` (src/CLA/lp_functions_2, missing from the repository); nothing is
assumed about it in the positive results, it is the true out-of-plane lamination parameters in the
counterexamples.
-/
namespace Bella

/-! ### consequences of the invariant -/

theorem SwapInv.eq_iff {c : Cons} {E : Nat} {ss0 ss : Stack} {bs : List FBlock} (h : SwapInv c E ss0 ss bs)
    {j : Nat} (hj : j + 1 < E) : nth ss j = nth ss (j + 1) ↔ nth ss0 j = nth ss0 (j + 1) := by
  have h1 := h.blocks.same h.const h.differ j
  have h2 := h.same j
  constructor
  · intro he
    exact (h2.1 (h1.2 ⟨hj, he⟩)).2
  · intro he
    exact (h1.1 (h2.2 ⟨hj, he⟩)).2

theorem SwapInv.within {c : Cons} {E : Nat} {ss0 ss : Stack} {bs : List FBlock} (h : SwapInv c E ss0 ss bs)
    (hd : c.diso = true) {j : Nat} (hj : j + 1 < E)
    (hw : Spec.WithinAngle c.deltaAngle (nth ss0 j) (nth ss0 (j + 1))) :
    Spec.WithinAngle c.deltaAngle (nth ss j) (nth ss (j + 1)) := by
  by_cases he : nth ss j = nth ss (j + 1)
  · rw [he]
    have := within_self_of hw
    obtain ⟨k, hk⟩ := this
    refine ⟨k, ?_⟩
    rw [sub_self] at hk ⊢
    exact hk
  · obtain ⟨b', hb', q1, q2⟩ := h.blocks.cover j (by omega)
    obtain ⟨b, hb, r1, r2⟩ := h.blocks.cover (j + 1) hj
    have hne : b'.id ≠ b.id := by
      intro hid
      have := h.blocks.inj hb' hb hid
      subst this
      exact he (by rw [h.const b' hb j q1 q2, h.const b' hb (j + 1) r1 r2])
    have hsx : b'.first + b'.size = b.first := by
      rcases Nat.lt_or_gt_of_ne hne with hl | hl
      · have := h.blocks.disj b' hb' b hb hl; omega
      · have := h.blocks.disj b hb b' hb' hl; omega
    have hadj := (h.blocks.adj b hb b' hb').2 hsx
    have := h.diso hd b hb b' hb' hadj (by
      rw [show b.first = j + 1 by omega]
      exact hw)
    rw [h.const b' hb' j q1 q2, h.const b hb (j + 1) r1 r2]
    exact this

/-- Two laminates whose plies change at the same places have blocks of the same sizes. -/
theorem contigOK_of_eq_iff {r ss : Stack} {m : Nat} (hl : r.length = ss.length)
    (h : ∀ j, j + 1 < ss.length → (nth r j = nth r (j + 1) ↔ nth ss j = nth ss (j + 1)))
    (hc : Spec.ContigOK m ss) : Spec.ContigOK m r := by
  intro a ha
  rw [replicate_infix_iff] at ha
  obtain ⟨i, hi, hall⟩ := ha
  apply hc (nth ss i)
  rw [replicate_infix_iff]
  refine ⟨i, by omega, ?_⟩
  intro k hk
  induction k with
  | zero => rfl
  | succ k ih =>
    rw [← ih (by omega)]
    have := (h (i + k) (by omega)).1 (by rw [hall k (by omega), show i + k + 1 = i + (k + 1) by omega, hall (k + 1) hk])
    rw [this]
    rfl

/-! ### C32 -/

/-- C32: on every non-empty laminate, apart from uniform symmetric laminates with an odd number of plies
(`Divisible`), `repair_flexural_1` terminates normally; the plies are only re-ordered; a symmetric laminate stays
symmetric and keeps its middle ply. -/
theorem C32_swaps_reorder {c : Cons} {attr : DamTolAttr} {D : FlexData} {lampamOf : Stack → Nat → ℚ} {ss : Stack}
    (h : Divisible c ss) (hs : c.sym = true → Spec.Symmetric ss) :
    ∃ res, repairFlexural1 c attr D lampamOf ss = .ok res ∧ res.Perm ss ∧ (c.sym = true → Spec.Symmetric res) ∧
      (c.sym = true → ss.length % 2 = 1 → res[ss.length / 2]? = ss[ss.length / 2]?) := by
  obtain ⟨res, start, bs, e, hst, hi, _⟩ := repairFlexural1_inv (attr := attr) (D := D) (lampamOf := lampamOf) h hs
    (k := 0) (fun _ _ => Nat.zero_le _)
  have hl := hi.perm.length_eq
  refine ⟨res, e, hi.perm, hi.sym, ?_⟩
  intro hsy ho
  have h2 := hst.sym hsy
  have := hi.rest (ss.length / 2) (by omega) (by omega)
  rw [nth_eq_getElem _ _ (by omega), nth_eq_getElem _ _ (by omega)] at this
  rw [List.getElem?_eq_getElem (by omega), List.getElem?_eq_getElem (by omega), this]

/-- C32: in a symmetric laminate the plies protected by the damage tolerance rule stay in place on both faces. -/
theorem C32_swaps_protected {c : Cons} {attr : DamTolAttr} {D : FlexData} {lampamOf : Stack → Nat → ℚ} {ss res : Stack}
    (h : Divisible c ss) (hsym : c.sym = true) (hs : Spec.Symmetric ss)
    (ha : attr.twoPlies = true ∨ attr = .rule 1 ∨ attr = .nPlies 1)
    (hr : repairFlexural1 c attr D lampamOf ss = .ok res) :
    res.take (keptPlies c attr) = ss.take (keptPlies c attr) ∧
      res.drop (ss.length - keptPlies c attr) = ss.drop (ss.length - keptPlies c attr) := by
  obtain ⟨res', start, bs, e, hst, hi, ht⟩ := repairFlexural1_inv (attr := attr) (D := D) (lampamOf := lampamOf) h
    (fun _ => hs) (k := keptPlies c attr) (by
      intro i hfalse
      unfold flexDamTol at hfalse
      unfold keptPlies
      split_ifs at hfalse ⊢ with h1 h2 h3
      · simp at hfalse; omega
      · simp at hfalse; omega
      · rcases ha with ha | ha
        · exact absurd ha h2
        · exact absurd ha h3
      · omega)
  rw [hr] at e
  obtain rfl := Except.ok.inj e
  have hl := hi.perm.length_eq
  have htake : res.take (keptPlies c attr) = ss.take (keptPlies c attr) := by
    apply List.ext_getElem
    · simp [hl]
    · intro i h1 h2
      simp only [List.length_take] at h1 h2
      rw [List.getElem_take, List.getElem_take]
      have := ht hsym i (by omega)
      rwa [nth_eq_getElem _ _ (by omega), nth_eq_getElem _ _ (by omega)] at this
  refine ⟨htake, ?_⟩
  have := congrArg List.reverse htake
  rw [List.reverse_take, List.reverse_take, hi.sym hsym, hs, hl] at this
  exact this

/-- C32: for asymmetric laminates and symmetric laminates with an even number of plies, the places where the ply
angle changes stay the same, hence a contiguity guideline (with any limit) stays satisfied; the disorientation
guideline stays satisfied where it was, whether or not the `lo` outer plies of each face are excepted. -/
theorem C32_swaps_rules {c : Cons} {attr : DamTolAttr} {D : FlexData} {lampamOf : Stack → Nat → ℚ} {ss res : Stack}
    (h : ss ≠ []) (hs : c.sym = true → Spec.Symmetric ss) (hev : c.sym = true → ss.length % 2 = 0)
    (hr : repairFlexural1 c attr D lampamOf ss = .ok res) :
    (∀ j, j + 1 < ss.length → (res[j]? = res[j + 1]? ↔ ss[j]? = ss[j + 1]?)) ∧
    (∀ m, Spec.ContigOK m ss → Spec.ContigOK m res) ∧
    (c.diso = true → ∀ lo, Spec.PairsWithin c.deltaAngle ss lo (ss.length - 1 - lo) →
      Spec.PairsWithin c.deltaAngle res lo (ss.length - 1 - lo)) := by
  obtain ⟨res', start, bs, e, hst, hi, _⟩ := repairFlexural1_inv (attr := attr) (D := D) (lampamOf := lampamOf)
    (c := c) (ss := ss) ⟨h, fun h1 h2 => by have := hev h1; omega⟩ hs (k := 0) (fun _ _ => Nat.zero_le _)
  rw [hr] at e
  obtain rfl := Except.ok.inj e
  have hl := hi.perm.length_eq
  -- pairs of the second half
  have hmir : ∀ j, j + 1 < ss.length → start + 1 ≤ j + 1 → c.sym = true →
      nth res j = nth res (ss.length - 1 - j) ∧ nth res (j + 1) = nth res (ss.length - 2 - j) ∧
      nth ss j = nth ss (ss.length - 1 - j) ∧ nth ss (j + 1) = nth ss (ss.length - 2 - j) := by
    intro j hj _ hsy
    have r1 := (symmetric_iff_nth res).1 (hi.sym hsy)
    have r2 := (symmetric_iff_nth ss).1 (hs hsy)
    refine ⟨?_, ?_, ?_, ?_⟩
    · have := r1 j (by omega); rw [hl] at this; exact this.symm
    · have := r1 (j + 1) (by omega)
      rw [hl, show ss.length - 1 - (j + 1) = ss.length - 2 - j by omega] at this; exact this.symm
    · exact (r2 j (by omega)).symm
    · have := r2 (j + 1) (by omega)
      rw [show ss.length - 1 - (j + 1) = ss.length - 2 - j by omega] at this; exact this.symm
  have heq : ∀ j, j + 1 < ss.length → (nth res j = nth res (j + 1) ↔ nth ss j = nth ss (j + 1)) := by
    intro j hj
    by_cases hlt : j + 1 < start + 1
    · exact hi.eq_iff hlt
    · have hsy : c.sym = true := by
        by_contra hc
        have := hst.asym (by simpa using hc)
        omega
      have hE := hst.even hsy (hev hsy)
      obtain ⟨m1, m2, m3, m4⟩ := hmir j hj (by omega) hsy
      by_cases hmid : j = start
      · have e1 : ss.length - 1 - j = j + 1 := by omega
        rw [e1] at m1 m3
        exact ⟨fun _ => m3, fun _ => m1⟩
      · rw [m1, m2, m3, m4]
        have := hi.eq_iff (j := ss.length - 2 - j) (by omega)
        rw [show ss.length - 2 - j + 1 = ss.length - 1 - j by omega] at this
        constructor
        · intro hh; exact (this.1 hh.symm).symm
        · intro hh; exact (this.2 hh.symm).symm
  refine ⟨?_, ?_, ?_⟩
  · intro j hj
    have := heq j hj
    rw [nth_eq_getElem _ _ (by omega), nth_eq_getElem _ _ (by omega), nth_eq_getElem _ _ (by omega),
      nth_eq_getElem _ _ (by omega)] at this
    rw [List.getElem?_eq_getElem (by omega), List.getElem?_eq_getElem (by omega),
      List.getElem?_eq_getElem (by omega), List.getElem?_eq_getElem (by omega), Option.some_inj, Option.some_inj]
    exact this
  · intro m hm
    exact contigOK_of_eq_iff hl heq hm
  · intro hd lo hp
    rw [pairsWithin_iff_nth] at hp ⊢
    intro i h1 h2 h3
    have hw := hp i h1 h2 (by omega)
    by_cases hlt : i + 1 < start + 1
    · exact hi.within hd hlt hw
    · have hsy : c.sym = true := by
        by_contra hc
        have := hst.asym (by simpa using hc)
        omega
      have hE := hst.even hsy (hev hsy)
      obtain ⟨m1, m2, m3, m4⟩ := hmir i (by omega) (by omega) hsy
      by_cases hmid : i = start
      · have e1 : ss.length - 1 - i = i + 1 := by omega
        rw [e1] at m1
        rw [m1]
        obtain ⟨k, hk⟩ := within_self_of hw
        refine ⟨k, ?_⟩
        rw [sub_self] at hk ⊢
        exact hk
      · rw [m1, m2]
        rw [m3, m4] at hw
        have := hi.within hd (j := ss.length - 2 - i) (by omega) (by
          rw [show ss.length - 2 - i + 1 = ss.length - 1 - i by omega]
          exact within_symm hw)
        rw [show ss.length - 2 - i + 1 = ss.length - 1 - i by omega] at this
        exact within_symm this

/-- C32 (failure): a symmetric laminate with an odd number of plies that all have the same angle makes the
function crash. -/
theorem C32_swaps_uniform_crash {c : Cons} (attr : DamTolAttr) (D : FlexData) (lampamOf : Stack → Nat → ℚ)
    (hs : c.sym = true) (a : Int) (k : Nat) :
    repairFlexural1 c attr D lampamOf (List.replicate (2 * k + 1) a) = .error .indexError := by
  unfold repairFlexural1 findBlocks blockStart
  simp only [List.length_replicate, hs, if_true]
  have hn : ∀ i, i < 2 * k + 1 → nth (List.replicate (2 * k + 1) a) i = a := by
    intro i hi
    rw [nth_eq_getElem _ _ (by simpa using hi)]
    simp
  rw [if_pos (by omega), midStart_error]
  · rfl
  · intro i hi
    rw [hn i (by omega), hn _ (by omega)]

/-! ### violations -/

/-- The true out-of-plane lamination parameters. -/
def trueLampamD (D : FlexData) (ss : Stack) (k : Nat) : ℚ := Spec.lampamD (fun a => D.cs a k) ss

/-- C32 (violation): the swap is evaluated one ply off, and a swap that worsens the laminate is accepted: an
asymmetric laminate that satisfies the rules is replaced by one with a larger out-of-plane objective. -/
theorem C32_swap_worsens : ∃ (c : Cons) (D : FlexData) (ss res : Stack),
    mkConstraints { sym := false, diso := true, deltaAngle := 45, contig := true, nContig := 2 } = .ok c ∧
    Spec.DisoOK 45 ss ∧ Spec.ContigOK 2 ss ∧
    repairFlexural1 c c.damTolAttr D (trueLampamD D) ss = .ok res ∧
    Spec.flexObjective D.cs D.coeffs D.target ss < Spec.flexObjective D.cs D.coeffs D.target res := by
  obtain ⟨c, hc, ht⟩ := ok_of_test
    (mkConstraints { sym := false, diso := true, deltaAngle := 45, contig := true, nContig := 2 })
    (fun (c : Cons) => decide (repairFlexural1 c c.damTolAttr exFlex (trueLampamD exFlex) [45, 90, 90, 45, 0, 0] =
      .ok [45, 0, 0, 45, 90, 90])) (by decide +kernel)
  refine ⟨c, exFlex, [45, 90, 90, 45, 0, 0], [45, 0, 0, 45, 90, 90], hc, ?_, ?_, of_decide_eq_true ht, ?_⟩
  · rw [← (C02_is_diso_ss_iff _ 45 none none (by decide)).1]; decide +kernel
  · rw [← (C04_is_contig_iff _ 2 (by decide) (by decide)).1]; decide +kernel
  · decide +kernel

/-- C32 (violation): the test that protects the outer plies of the second block looks at another block: in an
asymmetric laminate the plies required on the face by the damage tolerance rule are moved inside. -/
theorem C32_swap_breaks_damage_tolerance : ∃ (c : Cons) (D : FlexData) (ss res : Stack),
    mkConstraints { sym := false, contig := true, nContig := 3, damTol := true, damTolRule := 3 } = .ok c ∧
    Spec.DamTol3 ss ∧ Spec.ContigOK 3 ss ∧
    repairFlexural1 c c.damTolAttr D (trueLampamD D) ss = .ok res ∧ ¬ Spec.DamTol3 res := by
  obtain ⟨c, hc, ht⟩ := ok_of_test
    (mkConstraints { sym := false, contig := true, nContig := 3, damTol := true, damTolRule := 3 })
    (fun (c : Cons) => decide (repairFlexural1 c c.damTolAttr exFlex (trueLampamD exFlex)
      [45, 45, 0, 90, 90, 90, 0, 45, 45, 45] = .ok [45, 45, 0, 45, 45, 45, 0, 90, 90, 90])) (by decide +kernel)
  refine ⟨c, exFlex, [45, 45, 0, 90, 90, 90, 0, 45, 45, 45], [45, 45, 0, 45, 45, 45, 0, 90, 90, 90], hc, ?_, ?_,
    of_decide_eq_true ht, ?_⟩
  · rw [← damTolRule3_iff]; decide +kernel
  · rw [← (C04_is_contig_iff _ 3 (by decide) (by decide)).1]; decide +kernel
  · rw [← damTolRule3_iff]; decide +kernel

/-- C32 (violation): the middle ply is forgotten when the neighbours of the block next to it are updated: a
symmetric laminate with an odd number of plies that satisfies the contiguity rule is replaced by one that does
not. -/
theorem C32_swap_breaks_contiguity : ∃ (c : Cons) (D : FlexData) (ss res : Stack),
    mkConstraints { sym := true, contig := true, nContig := 2 } = .ok c ∧
    Spec.Symmetric ss ∧ Spec.ContigOK 2 ss ∧
    repairFlexural1 c c.damTolAttr D (trueLampamD D) ss = .ok res ∧ ¬ Spec.ContigOK 2 res := by
  obtain ⟨c, hc, ht⟩ := ok_of_test (mkConstraints { sym := true, contig := true, nContig := 2 })
    (fun (c : Cons) => decide (repairFlexural1 c c.damTolAttr exFlex (trueLampamD exFlex)
      [45, -45, 0, 90, 0, 45, 0, 90, 0, -45, 45] = .ok [0, 90, 0, -45, 45, 45, 45, -45, 0, 90, 0]))
    (by decide +kernel)
  refine ⟨c, exFlex, [45, -45, 0, 90, 0, 45, 0, 90, 0, -45, 45], [0, 90, 0, -45, 45, 45, 45, -45, 0, 90, 0], hc, rfl, ?_,
    of_decide_eq_true ht, ?_⟩
  · rw [← (C04_is_contig_iff _ 2 (by decide) (by decide)).1]; decide +kernel
  · rw [← (C04_is_contig_iff _ 2 (by decide) (by decide)).2]; decide +kernel

/-! ### concrete cases -/

def exSwapArgs : ConsArgs :=
  { sym := true, diso := true, deltaAngle := 45, contig := true, nContig := 2, damTol := true, damTolRule := 1 }

/-- A symmetric laminate with an even number of plies whose blocks are swapped. -/
example : ∃ c, mkConstraints exSwapArgs = .ok c ∧ Divisible c [45, 90, 45, 0, 0, 45, 90, 45] ∧
    repairFlexural1 c c.damTolAttr exFlex (trueLampamD exFlex) [45, 90, 45, 0, 0, 45, 90, 45] =
      .ok [45, 0, 45, 90, 90, 45, 0, 45] := by
  obtain ⟨c, hc, ht⟩ := ok_of_test (mkConstraints exSwapArgs)
    (fun (c : Cons) => decide (repairFlexural1 c c.damTolAttr exFlex (trueLampamD exFlex)
      [45, 90, 45, 0, 0, 45, 90, 45] = .ok [45, 0, 45, 90, 90, 45, 0, 45])) (by decide +kernel)
  exact ⟨c, hc, ⟨by simp, by simp⟩, of_decide_eq_true ht⟩

end Bella
