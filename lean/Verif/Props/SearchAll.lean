import Verif.Props.Search
import Verif.Props.Assembly

/-! # C53: the beam search is exhaustive when the limits on the number of nodes are not reached -/

namespace Bella

variable {V : Type} [AddMonoid V]

/-- The plies of the guide panel below the position where the search adds plies, for given choices. -/
def guideBelow (P : Problem V) (choice : List (Nat × Int)) : Stack :=
  Spec.panelPlies (P.pdl.getD P.thick []) (choice.filter (fun (p : Nat × Int) => P.c.sym || p.1 % 2 == 0))

/-- The plies of the guide panel above it (asymmetric laminates). -/
def guideAbove (P : Problem V) (choice : List (Nat × Int)) : Stack :=
  (Spec.panelPlies (P.pdl.getD P.thick [])
    (choice.filter (fun (p : Nat × Int) => ! (P.c.sym || p.1 % 2 == 0)))).reverse

/-- Every choice is one of the orientations that the pruning by lay-up rules keeps, given the choices made
before. -/
def Admitted (P : Problem V) (choice : List (Nat × Int)) : Prop :=
  ∀ (pre : List (Nat × Int)) (l : Nat) (a : Int), (pre ++ [(l, a)]) <+: choice →
    ∃ ss, pruning P.c.angles (guideBelow P pre) (guideAbove P pre) l P.indices.length P.c P.rule P.hasMiddle =
      .ok (some ss) ∧ a ∈ ss

theorem admitted_snoc (P : Problem V) (ch : List (Nat × Int)) (l : Nat) (a : Int) :
    Admitted P (ch ++ [(l, a)]) ↔ Admitted P ch ∧ ∃ ss, pruning P.c.angles (guideBelow P ch) (guideAbove P ch) l
      P.indices.length P.c P.rule P.hasMiddle = .ok (some ss) ∧ a ∈ ss := by
  constructor
  · intro h
    exact ⟨fun pre l' a' hp => h pre l' a' (hp.trans (List.prefix_append _ _)), h ch l a (List.prefix_refl _)⟩
  · rintro ⟨h1, h2⟩ pre l' a' hp
    rcases List.prefix_concat_iff.1 hp with he | he
    · obtain ⟨rfl, e⟩ := List.append_inj' he rfl
      simp only [List.cons.injEq, Prod.mk.injEq, and_true] at e
      obtain ⟨rfl, rfl⟩ := e
      exact h2
    · exact h1 pre l' a' he

/-- C53: every design returned consists of choices kept by the pruning and is described by its entries of
the tables; when the limits on the number of nodes are not reached, every sequence of choices kept by the
pruning is returned. -/
theorem C53_exhaustive (P : Problem V) (t : Tabs V) (hobj : ∀ o q, P.objMp o = .ok q → -6666 < q)
    (hthick : P.thick < P.nPanels) (h : beamSearch P = .ok t) :
    ∃ ns : List (Node V), t = tabsOf ns ∧
      (∀ x ∈ ns, ∃ d : List Int, d.length = P.indices.length ∧ Admitted P (P.indices.zip d) ∧
        Describes P (P.indices.zip d) x) ∧
      (max P.c.angles.length 2 ≤ min P.localLimit P.localLimitFinal →
       (max P.c.angles.length 2) ^ P.indices.length ≤ min P.globalLimit P.globalLimitFinal →
        ∀ d : List Int, d.length = P.indices.length → Admitted P (P.indices.zip d) →
          ∃ x ∈ ns, Describes P (P.indices.zip d) x) := by
  have hst : ∀ (x : Node V) (ch : List (Nat × Int)), Describes P ch x →
      x.bot[P.thick]? = some (guideBelow P ch) ∧ x.top[P.thick]? = some (guideAbove P ch) := by
    intro x ch hx
    rw [hx.bot, hx.top]
    simp only [List.getElem?_map, List.getElem?_range hthick, Option.map_some]
    exact ⟨rfl, rfl⟩
  rw [beamSearch, initTabs_eq] at h
  obtain ⟨ns, rfl, h1, h2, h3⟩ := searchLevels_inv P hobj
    (fun done ns => (∀ x ∈ ns, ∃ d : List Int, d.length = done.length ∧ Admitted P (done.zip d) ∧
        Describes P (done.zip d) x) ∧ ns.length ≤ nChoices P ^ done.length ∧
      (nChoices P ≤ min P.localLimitFinal P.localLimit →
       (nChoices P) ^ P.indices.length ≤ min P.globalLimitFinal P.globalLimit →
        ∀ d : List Int, d.length = done.length → Admitted P (done.zip d) →
          ∃ x ∈ ns, Describes P (done.zip d) x))
    (by
      intro done level ns ns' hpre hI c1 c2 _ c4
      obtain ⟨i1, i2, i3⟩ := hI
      have hklt : done.length < P.indices.length := by
        have := hpre.length_le
        simp at this
        omega
      refine ⟨fun x hx => ?_, ?_, fun l1 l2 d hd hok => ?_⟩
      · obtain ⟨m, hm, a, ha⟩ := c1 x hx
        obtain ⟨d, hd, hok, hdes⟩ := i1 m hm
        refine ⟨d ++ [a], by simp [hd], ?_⟩
        rw [List.zip_append hd.symm]
        refine ⟨(admitted_snoc P _ _ _).2 ⟨hok, ?_⟩, describes_child P _ m x level a hdes ha⟩
        obtain ⟨gb, gt, ss, g1, g2, g3, g4⟩ := ha.kept
        obtain ⟨e1, e2⟩ := hst m _ hdes
        rw [e1] at g1; cases g1
        rw [e2] at g2; cases g2
        exact ⟨ss, g3, g4⟩
      · rw [List.length_append, List.length_singleton, pow_succ]
        exact c2.trans (Nat.mul_le_mul_right _ i2)
      · have hne' : d ≠ [] := by rintro rfl; simp at hd
        obtain ⟨b, a, rfl⟩ : ∃ b a, d = b ++ [a] := ⟨d.dropLast, d.getLast hne', (List.dropLast_append_getLast hne').symm⟩
        have hbl : b.length = done.length := by simpa using hd
        rw [List.zip_append hbl.symm] at hok ⊢
        obtain ⟨hbok, ss, hss, hass⟩ := (admitted_snoc P _ _ _).1 hok
        obtain ⟨m, hm, hdes⟩ := i3 l1 l2 b hbl hbok
        have hcnt : ns.length * nChoices P ≤ min P.globalLimitFinal P.globalLimit := by
          refine le_trans (Nat.mul_le_mul_right _ i2) (le_trans ?_ l2)
          rw [← pow_succ]
          exact Nat.pow_le_pow_right (by simp) (by omega)
        obtain ⟨e1, e2⟩ := hst m _ hdes
        obtain ⟨x, hx, hxc⟩ := c4 l1 hcnt m hm _ _ ss e1 e2 hss a hass
        exact ⟨x, hx, describes_child P _ m x level a hdes hxc⟩)
    P.indices [] [rootNode P] t (by simp)
    ⟨by
      intro x hx
      rw [List.mem_singleton] at hx
      subst hx
      refine ⟨[], rfl, ?_, describes_root P⟩
      intro pre l a hp
      simp at hp, by simp, by
      intro _ _ d hd _
      obtain rfl : d = [] := List.length_eq_zero_iff.1 hd
      exact ⟨rootNode P, by simp, describes_root P⟩⟩ h
  exact ⟨ns, rfl, h1, fun l1 l2 => h3 (by rw [min_comm]; exact l1) (by rw [min_comm]; exact l2)⟩

/-- the hypotheses of `C53_exhaustive`, limits included, are met by the search `exampleAsym` -/
example : ∃ (a : ConsArgs) (c : Cons) (t : Tabs ℚ), mkConstraints a = .ok c ∧
    beamSearch (exampleAsym c) = .ok t ∧ (∀ o q, (exampleAsym c).objMp o = .ok q → -6666 < q) ∧
    (exampleAsym c).thick < (exampleAsym c).nPanels ∧ max c.angles.length 2 ≤ 20 ∧
    (max c.angles.length 2) ^ 4 ≤ 300 ∧ t.bots.length = 256 := by
  obtain ⟨c, hc, ht⟩ := ok_of_test (mkConstraints { sym := false })
    (fun c => decide (max c.angles.length 2 ≤ 20 ∧ (max c.angles.length 2) ^ 4 ≤ 300) &&
      (match beamSearch (exampleAsym c) with
      | .ok t => decide (t.bots.length = 256)
      | .error _ => false)) (by decide +kernel)
  simp only [Bool.and_eq_true, decide_eq_true_eq] at ht
  obtain ⟨⟨h1, h2⟩, h3⟩ := ht
  split at h3
  · rename_i t h
    refine ⟨_, c, t, hc, h, ?_, Nat.zero_lt_one, h1, h2, of_decide_eq_true h3⟩
    intro o q hq
    simp only [exampleAsym, Except.ok.injEq] at hq
    have : 0 ≤ q := by rw [← hq]; positivity
    linarith
  · cases h3

end Bella
