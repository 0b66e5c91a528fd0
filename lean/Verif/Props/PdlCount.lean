import Verif.Props.PdlIni
import Mathlib.Data.Finset.Prod
import Mathlib.Data.Finset.Card
import Mathlib.Data.Nat.Choose.Basic
/-
C42: the number of layouts `randomly_pdl_guide` looks for.
-/
namespace Bella

/-- A table of three panels: all the plies, all but `x`, only `z`. -/
def threeRows (N : Nat) (q : Nat × Nat) : Table :=
  [(List.range N).map (fun (j : Nat) => (j : Int)),
   (List.range N).map (fun (j : Nat) => if j = q.1 then (-1 : Int) else (j : Int)),
   (List.range N).map (fun (j : Nat) => if j = q.2 then (j : Int) else (-1 : Int))]

theorem uniqueDrops_three (N : Nat) (hN : 3 ≤ N) : uniqueDrops [0, 1, N - 1] = [0, 1, N - 1] := by
  have h1 : (0 : Nat) ≠ N - 1 := by omega
  have h2 : (1 : Nat) ≠ N - 1 := by omega
  have h3 : (1 : Nat) ≤ N - 1 := by omega
  unfold uniqueDrops
  rw [List.Nodup.dedup (by simp [h1, h2])]
  simp [List.insertionSort, List.orderedInsert, h3]

theorem row_of_get {row : List Int} {N : Nat} {g : Nat → Int} (hl : row.length = N) (h : ∀ j, j < N → row[j]? = some (g j)) :
    row = (List.range N).map g := by
  apply List.ext_getElem?
  intro j
  by_cases hj : j < N
  · rw [h j hj]
    simp [hj]
  · rw [List.getElem?_eq_none (by omega), List.getElem?_eq_none (by simp; omega)]

/-- **C42, violation.** The number of layouts looked for is limited by the product of the numbers of ways to drop the plies of each panel, not by the
number of blended layouts.  In a group of `N` plies with no ply dropped in the first panel, one in the second and all but one in the third, there are at
most `N * (N - 1)` layouts but the limit is `N * N`: if more than `N * (N - 1)` layouts are asked for, the search returns nothing before the time limit,
whatever the random draws. -/
theorem C42_layouts_asked_violation (a : GroupArgs) (N k : Nat) (hN : 3 ≤ N) (hd : a.nDrops = [0, 1, N - 1]) (hn : a.nMax = N)
    (hmid : (a.lastGroup && a.hasMiddle) = false) (hk : N * (N - 1) < k) (hk' : k ≤ N * N) (sched : List (Draw × Bool))
    (hv : ∀ x ∈ sched, ValidDraw a x.1) (hin : ∀ x ∈ sched, x.2 = false) (l : List Table) :
    randomlyPdlGuide a k false sched ≠ .ok (some l) := by
  intro h
  have hcount : nPdlOf a k = k := by
    unfold nPdlOf
    rw [hd, uniqueDrops_three N hN, hn]
    have : N.choose (N - 1) = N := by
      rw [Nat.choose_symm (by omega : 1 ≤ N)]
      simp
    simp [this, hk']
  unfold randomlyPdlGuide at h
  rw [hcount] at h
  obtain ⟨h1, h2, h3⟩ := C42_search_in_time _ _ _ sched hin l h
  have hsub : l.toFinset ⊆ ((Finset.range N).offDiag).image (fun q => formatPlyDrops2 (threeRows N q)) := by
    intro t ht
    obtain ⟨x, hx, hg⟩ := h3 t (by simpa using ht)
    obtain ⟨t0, rfl, e1, -, f, e2, e3⟩ := drawPdl_table a x.1 (hv x hx) hmid t 0 hg
    rw [hd] at e1 e2 e3
    obtain ⟨r0, a1, a2, a3, a4, a5, a6⟩ := e2 0 0 rfl
    obtain ⟨r1, b1, b2, b3, b4, b5, b6⟩ := e2 1 1 rfl
    obtain ⟨r2, c1, c2, c3, c4, c5, c6⟩ := e2 2 (N - 1) rfl
    rw [hn] at a2 a3 b2 b3 c2 c3
    obtain ⟨u, hu⟩ := List.length_eq_one_iff.1 b5
    have hf0 := List.length_eq_zero_iff.1 a5
    have hz : ((Finset.range N) \ (f (N - 1)).toFinset).card = 1 := by
      rw [Finset.card_sdiff_of_subset]
      · rw [List.toFinset_card_of_nodup c4, c5, Finset.card_range]; omega
      · intro j hj
        have := (c6 j (by simpa using hj)).1
        rw [hn] at this
        simpa using this
    obtain ⟨z, hz⟩ := Finset.card_eq_one.1 hz
    have hzm : ∀ j, j < N → (j ∈ f (N - 1) ↔ j ≠ z) := by
      intro j hj
      have := Finset.ext_iff.1 hz j
      simp [hj] at this
      tauto
    have hzN : z < N ∧ z ∉ f (N - 1) := by
      have := Finset.ext_iff.1 hz z
      simpa using this
    have huN : u < N := by
      have := (b6 u (by rw [hu]; simp)).1
      rwa [hn] at this
    have huz : u ≠ z := by
      intro e
      have := e3 1 (N - 1) (by simp) (by simp) (by omega)
      exact hzN.2 (e ▸ this (by rw [hu]; simp))
    rw [Finset.mem_image]
    refine ⟨(u, z), by simp [huN, hzN.1, huz], ?_⟩
    congr 1
    match t0, e1 with
    | [x0, x1, x2], _ =>
      simp at a1 b1 c1
      subst a1 b1 c1
      unfold threeRows
      rw [row_of_get a2 a3, row_of_get b2 b3, row_of_get c2 c3, hu, hf0]
      simp only [List.not_mem_nil, if_false, List.mem_singleton, List.cons.injEq, and_true, true_and]
      apply List.map_congr_left
      intro j hj
      have := hzm j (by simpa using hj)
      by_cases e : j = z
      · rw [if_neg (fun hh => this.1 hh e), if_pos e]
      · rw [if_pos (this.2 e), if_neg e]
  have hcard := (Finset.card_le_card hsub).trans Finset.card_image_le
  rw [List.toFinset_card_of_nodup h2, h1, Finset.offDiag_card, Finset.card_range] at hcard
  have : N * (N - 1) = N * N - N := by rw [Nat.mul_sub_one]
  omega

/-- A group of three plies: panels with 0, 1 and 2 plies dropped. -/
def countGroup : GroupArgs where
  nDrops := [0, 1, 2]
  nMax := 3
  pdlSpacing := false
  minDrop := 0
  sym := true
  boundaries := []

/-- Draws of all the blended layouts of the group. -/
def countDraws : List (Draw × Bool) :=
  [(⟨[0, 1], [[0], [0]]⟩, false), (⟨[0, 1], [[1], [0]]⟩, false), (⟨[0, 2], [[0], [0]]⟩, false),
   (⟨[0, 2], [[1], [0]]⟩, false), (⟨[1, 2], [[0], [0]]⟩, false), (⟨[1, 2], [[1], [0]]⟩, false)]

/-- The hypotheses of the theorem are met: with these draws the six layouts are found when six are asked for, none is returned when seven are. -/
example : countGroup.nDrops = [0, 1, 3 - 1] ∧ (countGroup.lastGroup && countGroup.hasMiddle) = false ∧
    (∀ x ∈ countDraws, ValidDraw countGroup x.1) ∧ (∀ x ∈ countDraws, x.2 = false) ∧
    randomlyPdlGuide countGroup 6 false countDraws = .ok (some
      [[[0, 1, 2], [0, -1, 1], [-1, -1, 0]], [[0, 1, 2], [-1, 0, 1], [-1, -1, 0]], [[0, 1, 2], [0, 1, -1], [-1, 0, -1]],
       [[0, 1, 2], [-1, 0, 1], [-1, 0, -1]], [[0, 1, 2], [0, 1, -1], [0, -1, -1]], [[0, 1, 2], [0, -1, 1], [0, -1, -1]]]) ∧
    randomlyPdlGuide countGroup 7 false countDraws = .ok none := by
  refine ⟨rfl, rfl, ?_, by decide, by decide +kernel, by decide +kernel⟩
  intro x hx
  simp only [countDraws, List.mem_cons, List.not_mem_nil, or_false] at hx
  rcases hx with rfl | rfl | rfl | rfl | rfl | rfl <;>
  · refine ⟨2, [1, 0], by decide +kernel, by decide, ?_, rfl, ?_⟩
    · simp [Spec.MayDrop, countGroup]
    · simp [Spec.RestoreSamples, Spec.IsSample]

end Bella
