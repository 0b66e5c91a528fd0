import Verif.Proofs.Groups
import Verif.Proofs.Sums
/-
C21, C22: division of the panels into groups of plies.
-/
namespace Bella
open Spec

/-- The thickest panel (src/BELLA/divide_panels.py): whenever the division succeeds, the groups have
admissible sizes, hold all the plies to be designed, and there is no division into fewer groups. -/
theorem C21_groups (sym : Bool) (nMax nCov gmin gmax : Int) (h1 : 1 ≤ gmin) (h2 : gmin ≤ gmax)
    (sizes firsts : List Int) (h : divideThickest sym nMax nCov gmin gmax = .ok (sizes, firsts)) :
    Admissible gmin gmax (pliesToDesign sym nMax nCov) sizes ∧ sizes ≠ [] ∧
      firsts.length = sizes.length ∧
      ∀ sizes', Admissible gmin gmax (pliesToDesign sym nMax nCov) sizes' →
        sizes.length ≤ sizes'.length := by
  unfold divideThickest at h
  cases sym with
  | true =>
    simp only [if_true, bind_ok] at h
    obtain ⟨l, hl, _, _, hr⟩ := h
    simp only [pure, Except.pure, Except.ok.injEq, Prod.mk.injEq] at hr
    obtain ⟨rfl, rfl⟩ := hr
    have hp := partitionSizes_ok _ gmin gmax h1 h2 l hl
    have he : pliesToDesign true nMax nCov = (nMax - 2 * nCov) / 2 := by
      unfold pliesToDesign; rw [if_pos rfl]; omega
    rw [he]
    exact ⟨hp.2.2.1, hp.2.1, firstPlies_length _ _ _, hp.2.2.2⟩
  | false =>
    simp only [Bool.false_eq_true, if_false, bind_ok] at h
    obtain ⟨l, hl, _, _, hr⟩ := h
    simp only [pure, Except.pure, Except.ok.injEq, Prod.mk.injEq] at hr
    obtain ⟨rfl, rfl⟩ := hr
    have hp := partitionSizes_ok _ gmin gmax h1 h2 l hl
    have he : pliesToDesign false nMax nCov = nMax - 2 * nCov := by
      unfold pliesToDesign; rw [if_neg (by simp)]
    rw [he]
    exact ⟨hp.2.2.1, hp.2.1, firstPlies_length _ _ _, hp.2.2.2⟩

/-- The division succeeds exactly when the plies can be divided into at least one group of
admissible size at all. -/
theorem C21_succeeds_iff (sym : Bool) (nMax nCov gmin gmax : Int) (h1 : 1 ≤ gmin) (h2 : gmin ≤ gmax) :
    (∃ r, divideThickest sym nMax nCov gmin gmax = .ok r) ↔
      ∃ sizes, sizes ≠ [] ∧ Admissible gmin gmax (pliesToDesign sym nMax nCov) sizes := by
  constructor
  · rintro ⟨⟨sizes, firsts⟩, h⟩
    have := C21_groups sym nMax nCov gmin gmax h1 h2 sizes firsts h
    exact ⟨sizes, this.2.1, this.1⟩
  · rintro ⟨sizes, hne, ha⟩
    unfold divideThickest
    cases sym with
    | true =>
      have he : pliesToDesign true nMax nCov = (nMax - 2 * nCov) / 2 := by
        unfold pliesToDesign; rw [if_pos rfl]; omega
      rw [he] at ha
      obtain ⟨l, hl⟩ := partitionSizes_exists _ gmin gmax h1 h2 sizes hne ha
      have hp := partitionSizes_ok _ gmin gmax h1 h2 l hl
      refine ⟨(l, firstPlies true 0 l), ?_⟩
      simp only [if_true, bind_ok]
      refine ⟨l, hl, (), ?_, rfl⟩
      rw [hp.2.2.1.2]
      split
      · rw [if_neg (by omega)]
      · rw [if_neg (by omega)]
    | false =>
      have he : pliesToDesign false nMax nCov = nMax - 2 * nCov := by
        unfold pliesToDesign; rw [if_neg (by simp)]
      rw [he] at ha
      obtain ⟨l, hl⟩ := partitionSizes_exists _ gmin gmax h1 h2 sizes hne ha
      have hp := partitionSizes_ok _ gmin gmax h1 h2 l hl
      refine ⟨(l, firstPlies false 0 l), ?_⟩
      simp only [Bool.false_eq_true, if_false, bind_ok]
      refine ⟨l, hl, (), ?_, rfl⟩
      rw [hp.2.2.1.2, if_neg (by simp)]

theorem divideThickest_firsts (sym : Bool) (nMax nCov gmin gmax : Int) (sizes firsts : List Int)
    (h : divideThickest sym nMax nCov gmin gmax = .ok (sizes, firsts)) :
    firsts = firstPlies sym 0 sizes := by
  unfold divideThickest at h
  cases sym with
  | true =>
    simp only [if_true, bind_ok] at h
    obtain ⟨l, hl, _, _, hr⟩ := h
    simp only [pure, Except.pure, Except.ok.injEq, Prod.mk.injEq] at hr
    obtain ⟨rfl, rfl⟩ := hr
    rfl
  | false =>
    simp only [Bool.false_eq_true, if_false, bind_ok] at h
    obtain ⟨l, hl, _, _, hr⟩ := h
    simp only [pure, Except.pure, Except.ok.injEq, Prod.mk.injEq] at hr
    obtain ⟨rfl, rfl⟩ := hr
    rfl

/-- Every ply to be designed lies in exactly one group, no group holds anything else. -/
theorem C21_every_ply_in_one_group (sym : Bool) (nMax nCov gmin gmax : Int) (h1 : 1 ≤ gmin)
    (h2 : gmin ≤ gmax) (sizes firsts : List Int)
    (h : divideThickest sym nMax nCov gmin gmax = .ok (sizes, firsts)) (p : Int) :
    groupsHolding firsts sizes p =
      if 0 ≤ p ∧ p < pliesToDesign sym nMax nCov then 1 else 0 := by
  have hg := C21_groups sym nMax nCov gmin gmax h1 h2 sizes firsts h
  rw [divideThickest_firsts sym nMax nCov gmin gmax sizes firsts h,
    firstPlies_holding sym 0 sizes (fun s hs => by have := hg.1.1 s hs; omega) p, hg.1.2]
  simp

/-- Symmetric laminates: the groups follow each other from the bottom. -/
theorem C21_positions_sym (nMax nCov gmin gmax : Int) (sizes firsts : List Int)
    (h : divideThickest true nMax nCov gmin gmax = .ok (sizes, firsts)) (i : Nat) (p : Int)
    (hp : firsts[i]? = some p) : p = (sizes.take i).sum := by
  rw [divideThickest_firsts true nMax nCov gmin gmax sizes firsts h] at hp
  unfold firstPlies at hp
  rw [if_pos rfl] at hp
  rw [cumulPos_get _ _ _ _ hp]; simp

/-- Asymmetric laminates: the groups come alternately from the bottom and from the top. -/
theorem C21_positions_asym (nMax nCov gmin gmax : Int) (h1 : 1 ≤ gmin) (h2 : gmin ≤ gmax)
    (sizes firsts : List Int)
    (h : divideThickest false nMax nCov gmin gmax = .ok (sizes, firsts)) (k : Nat) (p : Int) :
    (firsts[2 * k]? = some p → p = ((List.range k).map (fun j => sizes.getD (2 * j) 0)).sum) ∧
    (firsts[2 * k + 1]? = some p → p = nMax - 2 * nCov
      - ((List.range (k + 1)).map (fun j => sizes.getD (2 * j + 1) 0)).sum) := by
  have hg := C21_groups false nMax nCov gmin gmax h1 h2 sizes firsts h
  rw [divideThickest_firsts false nMax nCov gmin gmax sizes firsts h]
  have hf := firstPlies_asym_get 0 sizes k p
  have hs : sizes.sum = nMax - 2 * nCov := by
    have := hg.1.2; unfold pliesToDesign at this; simpa using this
  rw [hs] at hf
  simpa using hf

example : divideThickest true 83 1 6 12 = .ok ([6, 10, 12, 12], [0, 6, 16, 28]) := by
  decide +kernel
example : divideThickest false 83 1 6 12
    = .ok ([9, 12, 12, 12, 12, 12, 12], [0, 69, 9, 57, 21, 45, 33]) := by decide +kernel

/-- Partition of one laminate (src/LAYLA_V02/divide_laminate_asym.py). -/
theorem C21_layla_asym (n gmin gmax : Int) (h1 : 1 ≤ gmin) (h2 : gmin ≤ gmax)
    (sizes firsts : List Int) (h : divideLaminateAsym n gmin gmax = .ok (sizes, firsts)) :
    Admissible gmin gmax n sizes ∧ sizes ≠ [] ∧
      (∀ sizes', Admissible gmin gmax n sizes' → sizes.length ≤ sizes'.length) ∧
      ∀ p, groupsHolding firsts sizes p = if 0 ≤ p ∧ p < n then 1 else 0 := by
  unfold divideLaminateAsym at h
  simp only [bind_ok] at h
  obtain ⟨l, hl, _, _, hr⟩ := h
  simp only [pure, Except.pure, Except.ok.injEq, Prod.mk.injEq] at hr
  obtain ⟨rfl, rfl⟩ := hr
  have hp := partitionSizes_ok _ gmin gmax h1 h2 l hl
  refine ⟨hp.2.2.1, hp.2.1, hp.2.2.2, ?_⟩
  intro p
  rw [firstPlies_holding false 0 l (fun s hs => by have := hp.2.2.1.1 s hs; omega) p, hp.2.2.1.2]
  simp

/-- Partition of one symmetric laminate (src/LAYLA_V02/divide_laminate_sym.py): all groups but the
last have admissible sizes; the last one holds the middle ply in addition. -/
theorem C21_layla_sym (n gmin gmax : Int) (h1 : 1 ≤ gmin) (h2 : gmin ≤ gmax)
    (sizes firsts : List Int) (h : divideLaminateSym n gmin gmax = .ok (sizes, firsts)) :
    (∃ init last, sizes = init ++ [last] ∧
      Admissible gmin gmax (n / 2) (init ++ [last - n % 2])) ∧
      ∀ p, groupsHolding firsts sizes p = if 0 ≤ p ∧ p < n / 2 + n % 2 then 1 else 0 := by
  unfold divideLaminateSym at h
  simp only [bind_ok] at h
  obtain ⟨l, hl, _, _, hr⟩ := h
  simp only [pure, Except.pure, Except.ok.injEq, Prod.mk.injEq] at hr
  obtain ⟨rfl, rfl⟩ := hr
  have hp := partitionSizes_ok _ gmin gmax h1 h2 l hl
  obtain ⟨init, last, rfl⟩ := List.eq_nil_or_concat l |>.resolve_left hp.2.1
  rw [List.concat_eq_append] at *
  have hadm := hp.2.2.1
  have hfp : firstPlies true 0 (init ++ [last]) = firstPlies true 0 (init ++ [last + n % 2]) := by
    unfold firstPlies
    rw [if_pos rfl, if_pos rfl]
    have : ∀ (a : Int) (l : List Int) (x y : Int), cumulPos a (l ++ [x]) = cumulPos a (l ++ [y]) := by
      intro a l x y
      induction l generalizing a with
      | nil => rfl
      | cons s l ih => simp [cumulPos, ih]
    exact this _ _ _ _
  have hsz : (if n % 2 = 1 then (init ++ [last]).modify ((init ++ [last]).length - 1) (· + 1)
      else init ++ [last]) = init ++ [last + n % 2] := by
    split
    · rename_i hodd
      have : (init ++ [last]).length - 1 = init.length := by simp
      rw [this, modify_append_cons, hodd]
    · have : n % 2 = 0 := by omega
      rw [this]; simp
  rw [hsz]
  refine ⟨⟨init, last + n % 2, rfl, ?_⟩, ?_⟩
  · have : last + n % 2 - n % 2 = last := by omega
    rw [this]; exact hadm
  · intro p
    rw [hfp, firstPlies_holding]
    · have hs : (init ++ [last + n % 2]).sum = n / 2 + n % 2 := by
        have := hadm.2
        rw [List.sum_append] at this ⊢
        simp only [List.sum_cons, List.sum_nil] at this ⊢
        omega
      rw [hs]; simp
    · intro s hs
      rw [List.mem_append] at hs
      rcases hs with hs | hs
      · have := hadm.1 s (by simp [hs]); omega
      · have h3 := hadm.1 last (by simp)
        simp only [List.mem_singleton] at hs
        omega

example : divideLaminateSym 21 3 6 = .ok ([4, 7], [0, 4]) := by decide +kernel

/-- `forbidden_ply_counts` lists exactly the ply counts, in the allowed range, for which the plies
cannot be divided into groups of admissible size.  (When the covering plies leave no ply to design,
the count is not listed although `divide_panels` then raises, see `C21_no_ply_left`.) -/
theorem C21_forbidden (sym : Bool) (nCov nMin nMax gmin gmax n : Int) (h1 : 1 ≤ gmin)
    (h2 : gmin ≤ gmax) (hpos : 1 ≤ pliesToDesign sym n nCov) :
    n ∈ forbiddenPlyCounts sym nCov nMin nMax gmin gmax ↔
      nMin ≤ n ∧ n ≤ nMax ∧
        ¬ ∃ sizes, Admissible gmin gmax (pliesToDesign sym n nCov) sizes := by
  have hN : (if sym then decide (ceilDiv ((n - 2 * nCov) / 2) gmax > (n - 2 * nCov) / 2 / gmin)
      else decide (ceilDiv (n - 2 * nCov) gmax > (n - 2 * nCov) / gmin)) = true ↔
      ceilDiv (pliesToDesign sym n nCov) gmax > pliesToDesign sym n nCov / gmin := by
    unfold pliesToDesign
    cases sym with
    | true =>
      have : (n - 2 * nCov) / 2 = n / 2 - nCov := by omega
      simp [this]
    | false => simp
  have hrange : n ∈ (List.range (nMax + 1 - nMin).toNat).map (fun (k : Nat) => nMin + (k : Int)) ↔
      nMin ≤ n ∧ n ≤ nMax := by
    simp only [List.mem_map, List.mem_range]
    constructor
    · rintro ⟨k, hk, rfl⟩; omega
    · intro hn
      exact ⟨(n - nMin).toNat, by omega, by omega⟩
  have hex : (¬ ∃ sizes, Admissible gmin gmax (pliesToDesign sym n nCov) sizes) ↔
      ceilDiv (pliesToDesign sym n nCov) gmax > pliesToDesign sym n nCov / gmin := by
    constructor
    · intro hno
      by_contra hle
      have hp := partitionSizes_pos (pliesToDesign sym n nCov) gmin gmax h1 h2 hpos
      rw [if_neg hle] at hp
      exact hno ⟨_, (partitionSizes_ok _ _ _ h1 h2 _ hp).2.2.1⟩
    · rintro hgt ⟨sizes, ha⟩
      have hne : sizes ≠ [] := by
        rintro rfl
        have := ha.2
        simp at this
        omega
      obtain ⟨l, hl⟩ := partitionSizes_exists _ gmin gmax h1 h2 sizes hne ha
      rw [partitionSizes_pos _ gmin gmax h1 h2 hpos, if_pos hgt] at hl
      simp at hl
  unfold forbiddenPlyCounts
  rw [List.mem_filter, hrange, hex]
  simp only [hN]
  tauto

/-- When covering plies leave nothing to design, the division raises, although `forbidden_ply_counts`
lists no such ply count: a 4-ply symmetric laminate with two covering plies per face. -/
theorem C21_no_ply_left :
    divideThickest true 4 2 4 12 = .error .unbound ∧
      forbiddenPlyCounts true 2 4 4 4 12 = [] := by decide +kernel

/-- The positions stored for the thickest panel do not count the covering plies, whereas those of all
other panels do (lines 114 and 332). -/
theorem C21_covering_offset_violation :
    ∃ thick panel, divideThickest true 20 1 4 6 = .ok thick ∧
      dividePanel true 20 1 6 thick 18 3 = some panel ∧
      thick.2.head? = some 0 ∧ panel.firsts.head? = some 1 :=
  ⟨([4, 5], [0, 4]), ⟨[4, 4], [1, 5], [0, 1]⟩, by decide +kernel⟩

end Bella
