import Verif.Model.MultiPanel
import Verif.Props.Boundaries
import Verif.Props.Panels
/-
C71: the attributes of a multi-panel structure.
-/
namespace Bella

open Spec

theorem foldl_max_isGreatest (l : List Nat) (x : Nat) : (l.foldl max x ∈ x :: l) ∧ ∀ y ∈ x :: l, y ≤ l.foldl max x := by
  induction l generalizing x with
  | nil => simp
  | cons a l ih =>
    obtain ⟨h1, h2⟩ := ih (max x a)
    simp only [List.foldl_cons]
    constructor
    · rcases List.mem_cons.1 h1 with h | h
      · rw [h]
        rcases Nat.le_total x a with h' | h'
        · rw [Nat.max_eq_right h']; simp
        · rw [Nat.max_eq_left h']; simp
      · simp [h]
    · have h0 := h2 (max x a) (by simp)
      intro y hy
      rcases List.mem_cons.1 hy with rfl | hy
      · omega
      · rcases List.mem_cons.1 hy with rfl | hy
        · omega
        · exact h2 y (by simp [hy])

theorem foldl_min_isLeast (l : List Nat) (x : Nat) : (l.foldl min x ∈ x :: l) ∧ ∀ y ∈ x :: l, l.foldl min x ≤ y := by
  induction l generalizing x with
  | nil => simp
  | cons a l ih =>
    obtain ⟨h1, h2⟩ := ih (min x a)
    simp only [List.foldl_cons]
    constructor
    · rcases List.mem_cons.1 h1 with h | h
      · rw [h]
        rcases Nat.le_total x a with h' | h'
        · rw [Nat.min_eq_left h']; simp
        · rw [Nat.min_eq_right h']; simp
      · simp [h]
    · have h0 := h2 (min x a) (by simp)
      intro y hy
      rcases List.mem_cons.1 hy with rfl | hy
      · omega
      · rcases List.mem_cons.1 hy with rfl | hy
        · omega
        · exact h2 y (by simp [hy])

theorem pyMax_iff (l : List Nat) (m : Nat) : pyMax l = .ok m ↔ m ∈ l ∧ ∀ y ∈ l, y ≤ m := by
  cases l with
  | nil => simp [pyMax]
  | cons x l =>
    obtain ⟨h1, h2⟩ := foldl_max_isGreatest l x
    simp only [pyMax, Except.ok.injEq]
    constructor
    · rintro rfl; exact ⟨h1, h2⟩
    · rintro ⟨h3, h4⟩; exact Nat.le_antisymm (h4 _ h1) (h2 _ h3)

theorem pyMin_iff (l : List Nat) (m : Nat) : pyMin l = .ok m ↔ m ∈ l ∧ ∀ y ∈ l, m ≤ y := by
  cases l with
  | nil => simp [pyMin]
  | cons x l =>
    obtain ⟨h1, h2⟩ := foldl_min_isLeast l x
    simp only [pyMin, Except.ok.injEq]
    constructor
    · rintro rfl; exact ⟨h1, h2⟩
    · rintro ⟨h3, h4⟩; exact Nat.le_antisymm (h2 _ h3) (h4 _ h1)

theorem oneThickest_iff (nMax : Nat) (ps : List Panel) (i k : Nat) : oneThickest nMax i ps = .ok k ↔
    ∃ j, k = i + j ∧ (∃ p, ps[j]? = some p ∧ p.nPlies = nMax) ∧ ∀ j', j' < j → ∀ q, ps[j']? = some q → q.nPlies ≠ nMax := by
  induction ps generalizing i with
  | nil => simp [oneThickest]
  | cons p ps ih =>
    unfold oneThickest
    by_cases h : p.nPlies = nMax
    · rw [if_pos h]
      simp only [Except.ok.injEq]
      constructor
      · rintro rfl
        exact ⟨0, by simp, ⟨p, by simp, h⟩, by simp⟩
      · rintro ⟨j, rfl, _, h2⟩
        rcases Nat.eq_zero_or_pos j with rfl | hj
        · rfl
        · exact absurd h (h2 0 hj p (by simp))
    · rw [if_neg h, ih]
      constructor
      · rintro ⟨j, rfl, ⟨q, h1, h2⟩, h3⟩
        refine ⟨j + 1, by omega, ⟨q, by simpa using h1, h2⟩, ?_⟩
        intro j' hj' r hr
        cases j' with
        | zero => simp at hr; subst hr; exact h
        | succ j' => exact h3 j' (by omega) r (by simpa using hr)
      · rintro ⟨j, rfl, ⟨q, h1, h2⟩, h3⟩
        cases j with
        | zero => simp at h1; subst h1; exact absurd h2 h
        | succ j =>
          refine ⟨j, by omega, ⟨q, by simpa using h1, h2⟩, ?_⟩
          intro j' hj' r hr
          exact h3 (j' + 1) (by omega) r (by simpa using hr)

theorem mkMultiPanel_iff (pick : List Nat → Nat) (panels : List (Panel × PanelIds)) (w : Option (List ((Int × Int) × ℚ))) (m : MultiPanel) :
    mkMultiPanel pick panels w = .ok m ↔
      pyMin (panels.map (fun p => p.1.nPlies)) = .ok m.nMin ∧ pyMax (panels.map (fun p => p.1.nPlies)) = .ok m.nMax ∧
      oneThickest m.nMax 0 (panels.map (fun p => p.1)) = .ok m.indThick ∧
      calcPanelBoundaryDict pick (panels.map (fun p => p.2)) w = .ok (m.boundaries, m.boundaryWeights) ∧
      m.area = (panels.map (fun p => p.1.area)).sum ∧ m.areaPatches = (panels.map (fun p => p.1.area * (p.1.nPlies : ℚ))).sum ∧
      m.isThick = panels.map (fun p => p.1.nPlies == m.nMax) ∧ m.nPlies = panels.map (fun p => p.1.nPlies) ∧
      m.middles = panels.map (fun p => p.1.middle) ∧ m.hasMiddle = ((panels.map (fun p => p.1.middle)).sum != 0) ∧
      m.thickHasMiddle = (((panels.map (fun p => p.1.middle)).sum != 0) && m.nMax % 2 != 0) := by
  unfold mkMultiPanel
  simp only [bind_ok, List.map_map]
  constructor
  · rintro ⟨a, h1, b, h2, c, h3, d, h4, e⟩
    have e := Except.ok.inj e
    subst e
    exact ⟨h1, h2, h3, h4, rfl, rfl, rfl, rfl, rfl, rfl, rfl⟩
  · rintro ⟨h1, h2, h3, h4, h5, h6, h7, h8, h9, h10, h11⟩
    refine ⟨_, h1, _, h2, _, h3, _, h4, ?_⟩
    rcases m with ⟨m1, m2, m3, m4, m5, m6, m7, m8, m9, m10, m11, m12⟩
    simp only at *
    simp only [pure, Except.pure, Except.ok.injEq, MultiPanel.mk.injEq]
    refine ⟨h5.symm, h6.symm, trivial, trivial, h7.symm, h8.symm, h9.symm, h10.symm, h11.symm, trivial, trivial, trivial⟩

/-- **C71.** The smallest and largest ply counts are those of panels, and bound all the others; the recorded thickest panel is the first one
with the largest count, and exactly the panels with that count are marked as thick. -/
theorem C71_extrema (pick : List Nat → Nat) (panels : List (Panel × PanelIds)) (w : Option (List ((Int × Int) × ℚ))) (m : MultiPanel)
    (h : mkMultiPanel pick panels w = .ok m) :
    (∃ p ∈ panels, p.1.nPlies = m.nMin) ∧ (∃ p ∈ panels, p.1.nPlies = m.nMax) ∧
    (∀ p ∈ panels, m.nMin ≤ p.1.nPlies ∧ p.1.nPlies ≤ m.nMax) ∧
    (∃ p, panels[m.indThick]? = some p ∧ p.1.nPlies = m.nMax) ∧
    (∀ j, j < m.indThick → ∃ p, panels[j]? = some p ∧ p.1.nPlies < m.nMax) ∧
    m.isThick.length = panels.length ∧ m.nPlies.length = panels.length ∧
    (∀ (i : Nat) (p : Panel × PanelIds), panels[i]? = some p → m.nPlies[i]? = some p.1.nPlies ∧ (m.isThick[i]? = some true ↔ p.1.nPlies = m.nMax)) := by
  obtain ⟨h1, h2, h3, -, -, -, h7, h8, -, -, -⟩ := (mkMultiPanel_iff _ _ _ _).1 h
  rw [pyMin_iff] at h1
  rw [pyMax_iff] at h2
  rw [oneThickest_iff] at h3
  obtain ⟨j, e, ⟨p, hp, hpn⟩, hlt⟩ := h3
  rw [Nat.zero_add] at e
  subst e
  simp only [List.mem_map] at h1 h2
  obtain ⟨⟨a, ha, ha'⟩, h1⟩ := h1
  obtain ⟨⟨b, hb, hb'⟩, h2⟩ := h2
  have hmax : ∀ p ∈ panels, p.1.nPlies ≤ m.nMax := fun p hp => h2 _ ⟨p, hp, rfl⟩
  rw [List.getElem?_map] at hp
  obtain ⟨q, hq, hqe⟩ := Option.map_eq_some_iff.1 hp
  subst hqe
  refine ⟨⟨a, ha, ha'⟩, ⟨b, hb, hb'⟩, fun p hp => ⟨h1 _ ⟨p, hp, rfl⟩, hmax p hp⟩, ⟨q, hq, hpn⟩, ?_, by rw [h7]; simp, by rw [h8]; simp, ?_⟩
  · intro j' hj'
    have hl : j' < panels.length := lt_trans hj' (List.getElem?_eq_some_iff.1 hq).1
    refine ⟨panels[j'], List.getElem?_eq_getElem hl, ?_⟩
    have := hlt j' hj' panels[j'].1 (by rw [List.getElem?_map, List.getElem?_eq_getElem hl]; rfl)
    have := hmax panels[j'] (List.getElem_mem hl)
    omega
  · intro i p hp
    rw [h7, h8, List.getElem?_map, List.getElem?_map, hp]
    simp

/-- **C71.** With panels made by `Panel`, the area is the total area, the area of the patches lies between the smallest and the largest ply count
times the area, the weight is the areal density times the area of the patches and is the sum of the weights per panel. -/
theorem C71_areas (sym : Bool) (pick : List Nat → Nat) (panels : List (Panel × PanelIds)) (w : Option (List ((Int × Int) × ℚ))) (m : MultiPanel)
    (hp : ∀ p ∈ panels, ∃ a, mkPanel sym a = .ok p.1) (h : mkMultiPanel pick panels w = .ok m) (density : ℚ) :
    m.area = (panels.map (fun p => p.1.area)).sum ∧ 0 ≤ m.area ∧
    m.nMin * m.area ≤ m.areaPatches ∧ m.areaPatches ≤ m.nMax * m.area ∧
    structureWeight density (panels.map (fun p => p.1)) = density * m.areaPatches ∧
    (weightPerPanel density (panels.map (fun p => p.1))).sum = density * m.areaPatches ∧
    (∀ (i : Nat) (p : Panel × PanelIds), panels[i]? = some p → (weightPerPanel density (panels.map (fun p => p.1)))[i]? = some (density * (p.1.area * p.1.nPlies))) := by
  obtain ⟨-, -, hb, -⟩ := C71_extrema _ _ _ _ h
  obtain ⟨-, -, -, -, h5, h6, -⟩ := (mkMultiPanel_iff _ _ _ _).1 h
  have ha : ∀ p ∈ panels, 0 ≤ p.1.area := by
    intro p hpp
    obtain ⟨a, ha⟩ := hp p hpp
    obtain ⟨-, h1, h2, h3, -, -, e⟩ := (C65_constructor _ _ _).1 ha
    rw [e]
    simp only
    split_ifs
    · exact mul_nonneg h2 h3
    · exact h1
  have key : ∀ l : List (Panel × PanelIds), (∀ p ∈ l, 0 ≤ p.1.area ∧ m.nMin ≤ p.1.nPlies ∧ p.1.nPlies ≤ m.nMax) →
      0 ≤ (l.map (fun p => p.1.area)).sum ∧
      (m.nMin : ℚ) * (l.map (fun p => p.1.area)).sum ≤ (l.map (fun p => p.1.area * (p.1.nPlies : ℚ))).sum ∧
      (l.map (fun p => p.1.area * (p.1.nPlies : ℚ))).sum ≤ (m.nMax : ℚ) * (l.map (fun p => p.1.area)).sum := by
    intro l
    induction l with
    | nil => simp
    | cons p l ih =>
      intro hl
      obtain ⟨i1, i2, i3⟩ := ih (fun q hq => hl q (by simp [hq]))
      obtain ⟨a1, a2, a3⟩ := hl p (by simp)
      have a2' : (m.nMin : ℚ) ≤ p.1.nPlies := by exact_mod_cast a2
      have a3' : (p.1.nPlies : ℚ) ≤ m.nMax := by exact_mod_cast a3
      have b1 := mul_le_mul_of_nonneg_right a2' a1
      have b2 := mul_le_mul_of_nonneg_right a3' a1
      simp only [List.map_cons, List.sum_cons]
      refine ⟨by linarith, ?_, ?_⟩
      · rw [mul_add]; linarith
      · rw [mul_add]; linarith
  obtain ⟨k1, k2, k3⟩ := key panels (fun p hpp => ⟨ha p hpp, hb p hpp⟩)
  refine ⟨h5, by rw [h5]; exact k1, by rw [h5, h6]; exact k2, by rw [h5, h6]; exact k3, ?_, ?_, ?_⟩
  · unfold structureWeight; rw [h6, List.map_map]; rfl
  · unfold weightPerPanel
    rw [h6, List.map_map, ← List.sum_map_mul_left]
    rfl
  · intro i p hpi
    unfold weightPerPanel
    rw [List.map_map, List.getElem?_map, hpi]
    rfl

/-- **C71.** With panels made by `Panel` for laminates that are symmetric (`sym`) or not: some panel has a middle ply exactly when laminates are
symmetric and some ply count is odd; the thickest panel has one exactly when laminates are symmetric and the largest count is odd; the index of a
panel is zero without middle ply, and otherwise has as many plies on both sides. -/
theorem C71_middle_plies (sym : Bool) (pick : List Nat → Nat) (panels : List (Panel × PanelIds)) (w : Option (List ((Int × Int) × ℚ)))
    (m : MultiPanel) (hp : ∀ p ∈ panels, ∃ a, mkPanel sym a = .ok p.1) (h : mkMultiPanel pick panels w = .ok m) :
    (m.hasMiddle = true ↔ sym = true ∧ ∃ p ∈ panels, Odd p.1.nPlies) ∧
    (m.thickHasMiddle = true ↔ sym = true ∧ Odd m.nMax) ∧
    m.middles.length = panels.length ∧
    (∀ (i : Nat) (p : Panel × PanelIds), panels[i]? = some p → ∃ k, m.middles[i]? = some k ∧
      (if sym = true ∧ Odd p.1.nPlies then 1 ≤ k ∧ k - 1 = p.1.nPlies - k else k = 0)) := by
  obtain ⟨-, ⟨t, ht, htm⟩, -, -⟩ := C71_extrema _ _ _ _ h
  obtain ⟨-, -, -, -, -, -, -, -, h9, h10, h11⟩ := (mkMultiPanel_iff _ _ _ _).1 h
  have hm : ∀ p ∈ panels, p.1.middle = if sym = true ∧ Odd p.1.nPlies then (p.1.nPlies + 1) / 2 else 0 := by
    intro p hpp
    obtain ⟨a, ha⟩ := hp p hpp
    obtain ⟨h1, -, -, -, -, -, e⟩ := (C65_constructor _ _ _).1 ha
    have : Odd a.nPlies ↔ Odd a.nPlies.toNat := by
      rw [Int.odd_iff, Nat.odd_iff]; omega
    rw [e]
    simp only [this]
  have hs : (panels.map (fun p => p.1.middle)).sum ≠ 0 ↔ sym = true ∧ ∃ p ∈ panels, Odd p.1.nPlies := by
    rw [Ne, List.sum_eq_zero_iff]
    constructor
    · intro hh
      by_contra hc
      apply hh
      intro x hx
      obtain ⟨p, hpp, rfl⟩ := List.mem_map.1 hx
      rw [hm p hpp, if_neg]
      rintro ⟨h1, h2⟩
      exact hc ⟨h1, p, hpp, h2⟩
    · rintro ⟨h1, p, hpp, h2⟩ hc
      have := hc p.1.middle (List.mem_map.2 ⟨p, hpp, rfl⟩)
      rw [hm p hpp, if_pos ⟨h1, h2⟩] at this
      obtain ⟨k, hk⟩ := h2
      omega
  refine ⟨?_, ?_, by rw [h9]; simp, ?_⟩
  · rw [h10, bne_iff_ne, hs]
  · rw [h11, Bool.and_eq_true, bne_iff_ne, bne_iff_ne, hs]
    constructor
    · rintro ⟨⟨h1, -⟩, h2⟩
      exact ⟨h1, Nat.odd_iff.2 (by omega)⟩
    · rintro ⟨h1, h2⟩
      refine ⟨⟨h1, t, ht, by rw [htm]; exact h2⟩, ?_⟩
      have := Nat.odd_iff.1 h2
      omega
  · intro i p hpi
    refine ⟨p.1.middle, by rw [h9, List.getElem?_map, hpi]; rfl, ?_⟩
    rw [hm p (List.mem_of_getElem? hpi)]
    split_ifs with hc
    · obtain ⟨k, hk⟩ := hc.2
      omega
    · rfl

/-- **C71.** The list of the thickest panels: increasing, never empty, exactly the panels with the largest ply count (or, for symmetric laminates
and an odd largest count, at most one ply less). -/
theorem C71_thickest (sym : Bool) (pick : List Nat → Nat) (panels : List (Panel × PanelIds)) (w : Option (List ((Int × Int) × ℚ)))
    (m : MultiPanel) (h : mkMultiPanel pick panels w = .ok m) :
    ∃ l, thickestPanels sym m.nMax (panels.map (fun p => p.1)) = .ok l ∧ l.Pairwise (· < ·) ∧ m.indThick ∈ l ∧
      ∀ i, i ∈ l ↔ ∃ p, panels[i]? = some p ∧
        (p.1.nPlies = m.nMax ∨ (sym = true ∧ Odd m.nMax ∧ p.1.nPlies + 1 = m.nMax)) := by
  obtain ⟨-, -, -, ⟨q, hq, hqn⟩, -⟩ := C71_extrema _ _ _ _ h
  set f : Panel × Nat → Bool := fun (p : Panel × Nat) =>
    if sym && m.nMax % 2 == 1 then p.1.nPlies == m.nMax || (p.1.nPlies : Int) == (m.nMax : Int) - 1 else p.1.nPlies == m.nMax with hf
  set l := (((panels.map (fun p => p.1)).zipIdx).filter f).map (fun (p : Panel × Nat) => p.2) with hl
  have hmem : ∀ i, i ∈ l ↔ ∃ p : Panel × PanelIds, panels[i]? = some p ∧
      (p.1.nPlies = m.nMax ∨ (sym = true ∧ Odd m.nMax ∧ p.1.nPlies + 1 = m.nMax)) := by
    intro i
    rw [hl]
    simp only [List.mem_map, List.mem_filter, Prod.exists, List.mem_zipIdx_iff_getElem?]
    have hfi : ∀ p : Panel, f (p, i) = true ↔ (p.nPlies = m.nMax ∨ (sym = true ∧ Odd m.nMax ∧ p.nPlies + 1 = m.nMax)) := by
      intro p
      rw [hf]
      simp only
      rw [Nat.odd_iff]
      by_cases hc : (sym && m.nMax % 2 == 1) = true
      · rw [if_pos hc]
        simp only [Bool.and_eq_true, beq_iff_eq] at hc
        simp only [Bool.or_eq_true, beq_iff_eq, hc, true_and]
        omega
      · rw [if_neg hc]
        simp only [Bool.and_eq_true, beq_iff_eq] at hc
        simp only [beq_iff_eq]
        constructor
        · exact Or.inl
        · rintro (h | ⟨h1, h2, -⟩)
          · exact h
          · exact absurd ⟨h1, h2⟩ hc
    constructor
    · rintro ⟨p, j, ⟨h1, h2⟩, rfl⟩
      rw [List.getElem?_map] at h1
      obtain ⟨r, hr, rfl⟩ := Option.map_eq_some_iff.1 h1
      exact ⟨r.1, r.2, hr, (hfi _).1 h2⟩
    · rintro ⟨p, p', h1, h2⟩
      exact ⟨p, i, ⟨by rw [List.getElem?_map, h1]; rfl, (hfi _).2 h2⟩, rfl⟩
  have hin : m.indThick ∈ l := (hmem _).2 ⟨q, hq, Or.inl hqn⟩
  refine ⟨l, ?_, ?_, hin, hmem⟩
  · unfold thickestPanels
    simp only
    rw [if_neg]
    intro hc
    have : l = [] := hc
    rw [this] at hin
    simp at hin
  · rw [hl]
    have : (((panels.map (fun p => p.1)).zipIdx).map (fun (p : Panel × Nat) => p.2)).Pairwise (· < ·) := by
      rw [List.zipIdx_map_snd]
      exact List.pairwise_lt_range'
    exact this.sublist (List.Sublist.map _ List.filter_sublist)

/-- Number of occurrences of `j` among the neighbours of `i` added by the boundaries. -/
theorem neighbourPanels_spec (bs : List (Nat × Nat)) (L : List (List Nat)) (hb : ∀ b ∈ bs, b.1 < L.length ∧ b.2 < L.length) :
    ∃ R, bs.foldlM (init := L) (fun (l : List (List Nat)) (b : Nat × Nat) => do
        let r ← pyGet l b.1
        let l := l.set b.1 (r ++ [b.2])
        let r ← pyGet l b.2
        return l.set b.2 (r ++ [b.1]) : _ → _ → Py _) = .ok R ∧ R.length = L.length ∧
      ∀ i j, i < L.length → (R.getD i []).count j = (L.getD i []).count j + bs.count (i, j) + bs.count (j, i) := by
  induction bs generalizing L with
  | nil => exact ⟨L, rfl, rfl, by simp⟩
  | cons b bs ih =>
    obtain ⟨h1, h2⟩ := hb b (by simp)
    rw [List.foldlM_cons]
    have h2' : b.2 < (L.set b.1 (L[b.1] ++ [b.2])).length := by simpa using h2
    rw [pyGet_ok h1]
    simp only [bind, Except.bind]
    rw [pyGet_ok h2']
    simp only [pure, Except.pure]
    set L' := (L.set b.1 (L[b.1] ++ [b.2])).set b.2 ((L.set b.1 (L[b.1] ++ [b.2]))[b.2] ++ [b.1]) with hL'
    have hlen : L'.length = L.length := by rw [hL']; simp
    obtain ⟨R, e, hR, hc⟩ := ih L' (fun c hc => by rw [hlen]; exact hb c (by simp [hc]))
    refine ⟨R, e, by rw [hR, hlen], ?_⟩
    intro i j hi
    rw [hc i j (by omega)]
    have hcount : (L'.getD i []).count j = (L.getD i []).count j + (if b.1 = i ∧ b.2 = j then 1 else 0) + (if b.2 = i ∧ b.1 = j then 1 else 0) := by
      rw [hL']
      simp only [List.getD_eq_getElem?_getD, List.getElem?_set, List.length_set, List.getElem_set]
      by_cases e1 : b.2 = i
      · rw [if_pos e1, if_pos (by omega)]
        by_cases e2 : b.1 = i
        · rw [if_pos (by omega)]
          subst e1
          simp only [Option.getD_some, List.count_append, List.count_singleton, e2, true_and, List.getElem?_eq_getElem h2]
          simp only [beq_iff_eq]
        · rw [if_neg (by omega)]
          subst e1
          simp only [Option.getD_some, List.count_append, List.count_singleton, e2, false_and, if_false, true_and, List.getElem?_eq_getElem h2]
          simp only [beq_iff_eq, Nat.add_zero]
      · rw [if_neg e1]
        by_cases e2 : b.1 = i
        · rw [if_pos e2]
          subst e2
          simp only [h1, if_true, Option.getD_some, List.count_append, List.count_singleton, e1, true_and, List.getElem?_eq_getElem h1, false_and, if_false]
          simp only [beq_iff_eq, Nat.add_zero]
        · rw [if_neg e2]
          simp [e1, e2]
    rw [hcount, List.count_cons, List.count_cons]
    have e1 : (if (b == (i, j)) = true then 1 else 0) = (if b.1 = i ∧ b.2 = j then 1 else 0) := by
      simp only [beq_iff_eq, Prod.ext_iff]
    have e2 : (if (b == (j, i)) = true then 1 else 0) = (if b.2 = i ∧ b.1 = j then 1 else 0) := by
      simp only [beq_iff_eq, Prod.ext_iff, and_comm]
    rw [e1, e2]
    omega

/-- **C71.** The neighbour lists: `j` appears among the neighbours of `i` exactly when one of the two panels names the other as neighbour, once
for two different panels. -/
theorem C71_neighbours (pick : List Nat → Nat) (hpick : ∀ l, l ≠ [] → pick l ∈ l) (panels : List (Panel × PanelIds))
    (w : Option (List ((Int × Int) × ℚ))) (m : MultiPanel) (h : mkMultiPanel pick panels w = .ok m) :
    ∃ L, neighbourPanels panels.length m.boundaries = .ok L ∧ L.length = panels.length ∧
      (∀ i j, i < panels.length → (j ∈ L.getD i [] ↔ Adj (panels.map (fun p => p.2)) i j)) ∧
      (∀ i j, i < panels.length → i ≠ j → (L.getD i []).count j ≤ 1) ∧
      (∀ i, i < panels.length → Adj (panels.map (fun p => p.2)) i i → (L.getD i []).count i = 2) := by
  obtain ⟨-, -, -, h4, -⟩ := (mkMultiPanel_iff _ _ _ _).1 h
  obtain ⟨-, hnd, hbs⟩ := C46_boundaries pick hpick _ _ _ _ h4
  obtain ⟨L, e, hL, hc⟩ := neighbourPanels_spec m.boundaries (List.replicate panels.length []) (by
    intro b hb
    have := adj_lt ((hbs b.1 b.2).1 hb).2
    simpa using this)
  rw [List.length_replicate] at hL hc
  have hcount : ∀ x, m.boundaries.count x = if x ∈ m.boundaries then 1 else 0 := by
    intro x
    split_ifs with hx
    · exact List.count_eq_one_of_mem hnd hx
    · exact List.count_eq_zero_of_not_mem hx
  have hc2 : ∀ i j, i < panels.length → (L.getD i []).count j =
      (if (i, j) ∈ m.boundaries then 1 else 0) + (if (j, i) ∈ m.boundaries then 1 else 0) := by
    intro i j hi
    rw [hc i j hi, hcount, hcount]
    simp [List.getD_eq_getElem?_getD, List.getElem?_replicate, hi]
  refine ⟨L, e, hL, ?_, ?_, ?_⟩
  · intro i j hi
    rw [← List.count_pos_iff, hc2 i j hi]
    constructor
    · intro hp
      by_cases h1 : (i, j) ∈ m.boundaries
      · exact ((hbs i j).1 h1).2
      · rw [if_neg h1] at hp
        by_cases h2 : (j, i) ∈ m.boundaries
        · exact adj_symm ((hbs j i).1 h2).2
        · rw [if_neg h2] at hp
          omega
    · intro ha
      rcases Nat.le_total i j with hij | hij
      · rw [if_pos ((hbs i j).2 ⟨hij, ha⟩)]; omega
      · rw [if_pos ((hbs j i).2 ⟨hij, adj_symm ha⟩)]; omega
  · intro i j hi hij
    rw [hc2 i j hi]
    rcases Nat.lt_or_gt_of_ne hij with hl | hl
    · rw [if_neg (c := (j, i) ∈ m.boundaries) (fun x => by have := ((hbs j i).1 x).1; omega)]
      split_ifs <;> omega
    · rw [if_neg (c := (i, j) ∈ m.boundaries) (fun x => by have := ((hbs i j).1 x).1; omega)]
      split_ifs <;> omega
  · intro i hi ha
    rw [hc2 i i hi, if_pos ((hbs i i).2 ⟨le_refl i, ha⟩)]

theorem idDict_ok_iff (panels : List PanelIds) : (∃ d, idDict panels = .ok d) ↔ (panels.map (·.ID)).Nodup := by
  unfold idDict
  constructor
  · rintro ⟨d, h⟩
    split at h
    · cases h
    · rename_i hl
      rw [not_not] at hl
      have := (List.dedup_sublist (panels.map (·.ID))).eq_of_length (by simpa using hl)
      rw [← this]
      exact List.nodup_dedup _
  · intro h
    rw [List.Nodup.dedup h, if_neg (by simp)]
    exact ⟨_, rfl⟩

theorem directed_ok_iff {panels : List PanelIds} {dict : List (Int × Nat)} (hd : idDict panels = .ok dict) :
    (∃ dirs, directedBoundaries panels dict = .ok dirs) ↔ ∀ p ∈ panels, ∀ n ∈ p.neighbours, ∃ q ∈ panels, q.ID = n := by
  have hget : ∀ n, (∃ e, dictGet dict n = .ok e) ↔ ∃ q ∈ panels, q.ID = n := by
    intro n
    simp only [dictGet_eq_ok, idDict_lookup hd]
    constructor
    · rintro ⟨e, q, h1, h2⟩; exact ⟨q, List.mem_of_getElem? h1, h2⟩
    · rintro ⟨q, h1, h2⟩
      obtain ⟨e, he⟩ := List.getElem?_of_mem h1
      exact ⟨e, q, he, h2⟩
  unfold directedBoundaries
  constructor
  · rintro ⟨dirs, h⟩ p hp n hn
    rw [bind_ok] at h
    obtain ⟨rows, hr, -⟩ := h
    obtain ⟨i, hi⟩ := List.getElem?_of_mem hp
    obtain ⟨y, -, hy⟩ := forall₂_mem_left (mapM_inv _ _ _ hr) (List.mem_zipIdx_iff_getElem?.2 hi : (p, i) ∈ panels.zipIdx)
    simp only [bind_ok] at hy
    obtain ⟨ns, hns, -⟩ := hy
    obtain ⟨e, -, he⟩ := forall₂_mem_left (mapM_inv _ _ _ hns) hn
    exact (hget n).1 ⟨e, he⟩
  · intro h
    have : ∃ rows, (panels.zipIdx).mapM (fun (p, i) => do
        let ns ← p.neighbours.mapM (fun n => dictGet dict n)
        return ns.flatMap (fun e => [sort2 i e, (sort2 i e).swap]) : _ → Py _) = .ok rows := by
      apply mapM_exists
      rintro ⟨p, i⟩ hp
      obtain ⟨ns, hns⟩ := mapM_exists (fun n => dictGet dict n) p.neighbours
        (fun n hn => (hget n).2 (h p (List.mem_of_getElem? (List.mem_zipIdx_iff_getElem?.1 hp)) n hn))
      exact ⟨_, by simp only [hns]; rfl⟩
    obtain ⟨rows, hr⟩ := this
    exact ⟨_, by rw [hr]; rfl⟩

theorem foldlM_ok_iff {α β : Type} (P : β → Prop) (f : α → β → Py α) (hf : ∀ a b, (∃ r, f a b = .ok r) ↔ P b) (l : List β) (a : α) :
    (∃ r, l.foldlM (init := a) f = .ok r) ↔ ∀ b ∈ l, P b := by
  induction l generalizing a with
  | nil => simp [pure, Except.pure]
  | cons b l ih =>
    rw [List.foldlM_cons]
    simp only [bind_ok, List.forall_mem_cons]
    constructor
    · rintro ⟨r, a', h1, h2⟩
      exact ⟨(hf a b).1 ⟨a', h1⟩, (ih a').1 ⟨r, h2⟩⟩
    · rintro ⟨h1, h2⟩
      obtain ⟨a', h1⟩ := (hf a b).2 h1
      obtain ⟨r, h2⟩ := (ih a').2 h2
      exact ⟨r, a', h1, h2⟩

/-- The table of weights gives a weight other than zero to the boundary of the panels of IDs `a` and `b`, in one of the two orders. -/
def Weighted (d : List ((Int × Int) × ℚ)) (a b : Int) : Prop :=
  (∃ x, d.lookup (a, b) = some x ∧ x ≠ 0) ∨ ∃ x, d.lookup (b, a) = some x ∧ x ≠ 0

theorem weightOf_ok_iff (d : List ((Int × Int) × ℚ)) (a b : Int) : (∃ r, weightOf d a b = .ok r) ↔ Weighted d a b := by
  have hg : ∀ k, ((d.lookup k).getD 0 ≠ 0) ↔ ∃ x, d.lookup k = some x ∧ x ≠ 0 := by
    intro k
    cases d.lookup k <;> simp
  have key : (∃ r, weightOf d a b = .ok r) ↔
      ((d.lookup (min a b, max a b)).getD 0 ≠ 0 ∨ (d.lookup (max a b, min a b)).getD 0 ≠ 0) := by
    unfold weightOf
    simp only
    split_ifs with h1 h2
    · exact iff_of_true ⟨_, rfl⟩ (Or.inl h1)
    · exact iff_of_true ⟨_, rfl⟩ (Or.inr h2)
    · refine iff_of_false ?_ (by tauto)
      rintro ⟨r, hr⟩; cases hr
  rw [key, hg, hg]
  unfold Weighted
  rcases le_total a b with h | h
  · rw [min_eq_left h, max_eq_right h]
  · rw [min_eq_right h, max_eq_left h, or_comm]

/-- Different boundaries need different entries of the table of weights. -/
theorem weighted_count (panels : List PanelIds) (hn : (panels.map (·.ID)).Nodup) (d : List ((Int × Int) × ℚ)) (bs : List (Nat × Nat))
    (hnd : bs.Nodup) (hb : ∀ b ∈ bs, b.1 ≤ b.2 ∧ b.2 < panels.length)
    (hw : ∀ b ∈ bs, Weighted d (panels.getD b.1 ⟨0, []⟩).ID (panels.getD b.2 ⟨0, []⟩).ID) : bs.length ≤ d.length := by
  classical
  set id : Nat → Int := fun i => (panels.getD i ⟨0, []⟩).ID with hid
  have hinj : ∀ i j, i < panels.length → j < panels.length → id i = id j → i = j := by
    intro i j hi hj he
    simp only [hid, List.getD_eq_getElem?_getD, List.getElem?_eq_getElem hi, List.getElem?_eq_getElem hj, Option.getD_some] at he
    have hi' : i < (panels.map (·.ID)).length := by simpa using hi
    have hj' : j < (panels.map (·.ID)).length := by simpa using hj
    exact (List.Nodup.getElem_inj_iff hn (hi := hi') (hj := hj')).1 (by simpa using he)
  set key : Nat × Nat → Int × Int := fun b =>
    if ∃ x, d.lookup (id b.1, id b.2) = some x ∧ x ≠ 0 then (id b.1, id b.2) else (id b.2, id b.1) with hkey
  have hk : ∀ b, key b = (id b.1, id b.2) ∨ key b = (id b.2, id b.1) := by
    intro b; simp only [hkey]; split_ifs <;> simp
  have hmem : ∀ b ∈ bs, key b ∈ d.map (·.1) := by
    intro b hb'
    simp only [hkey]
    split_ifs with hc
    · obtain ⟨x, hx, -⟩ := hc
      exact List.mem_map.2 ⟨_, mem_of_lookup hx, rfl⟩
    · rcases hw b hb' with h | h
      · exact absurd h hc
      · obtain ⟨x, hx, -⟩ := h
        exact List.mem_map.2 ⟨_, mem_of_lookup hx, rfl⟩
  have hnk : (bs.map key).Nodup := by
    rw [List.nodup_map_iff_inj_on hnd]
    intro x hx y hy he
    obtain ⟨x1, x2⟩ := hb x hx
    obtain ⟨y1, y2⟩ := hb y hy
    have : (id x.1 = id y.1 ∧ id x.2 = id y.2) ∨ (id x.1 = id y.2 ∧ id x.2 = id y.1) := by
      rcases hk x with h1 | h1 <;> rcases hk y with h2 | h2 <;> rw [h1, h2, Prod.mk.injEq] at he <;> tauto
    rcases this with ⟨h1, h2⟩ | ⟨h1, h2⟩
    · exact Prod.ext (hinj _ _ (by omega) (by omega) h1) (hinj _ _ (by omega) (by omega) h2)
    · have e1 := hinj _ _ (by omega) (by omega) h1
      have e2 := hinj _ _ (by omega) (by omega) h2
      exact Prod.ext (by omega) (by omega)
  have := (hnk.subperm (fun k hk' => by obtain ⟨b, hb', rfl⟩ := List.mem_map.1 hk'; exact hmem b hb')).length_le
  simpa using this

/-- The boundaries and their weights are computed exactly when the IDs differ, the neighbours exist, the panels are connected and (when weights
are given) no weight is negative and each boundary has one other than zero. -/
theorem boundaryDict_ok_iff (pick : List Nat → Nat) (hpick : ∀ l, l ≠ [] → pick l ∈ l) (panels : List PanelIds)
    (w : Option (List ((Int × Int) × ℚ))) : (∃ r, calcPanelBoundaryDict pick panels w = .ok r) ↔
      (panels.map (·.ID)).Nodup ∧ (∀ p ∈ panels, ∀ n ∈ p.neighbours, ∃ q ∈ panels, q.ID = n) ∧ ConnectedPanels panels ∧
      ∀ d, w = some d → (∀ x ∈ d, 0 ≤ x.2) ∧
        ∀ i j p q, panels[i]? = some p → panels[j]? = some q → Adj panels i j → Weighted d p.ID q.ID := by
  by_cases hn : (panels.map (·.ID)).Nodup
  swap
  · refine iff_of_false ?_ (by tauto)
    rintro ⟨r, h⟩
    unfold calcPanelBoundaryDict at h
    rw [bind_ok] at h
    obtain ⟨d, hd, -⟩ := h
    exact hn ((idDict_ok_iff panels).1 ⟨d, hd⟩)
  obtain ⟨dict, hd⟩ := (idDict_ok_iff panels).2 hn
  by_cases hnb : ∀ p ∈ panels, ∀ n ∈ p.neighbours, ∃ q ∈ panels, q.ID = n
  swap
  · refine iff_of_false ?_ (by tauto)
    rintro ⟨r, h⟩
    unfold calcPanelBoundaryDict at h
    rw [hd] at h
    simp only [bind_ok, Except.ok.injEq] at h
    obtain ⟨_, rfl, dirs, h, -⟩ := h
    exact hnb ((directed_ok_iff hd).1 ⟨dirs, h⟩)
  obtain ⟨dirs, hdirs⟩ := (directed_ok_iff hd).2 hnb
  have hcon := C46_connectivity pick hpick panels dict dirs hd hdirs
  by_cases hc : ConnectedPanels panels
  swap
  · refine iff_of_false ?_ (by tauto)
    rintro ⟨r, h⟩
    unfold calcPanelBoundaryDict at h
    rw [hd] at h
    simp only [bind_ok, Except.ok.injEq] at h
    obtain ⟨_, rfl, dirs', h, _, h', -⟩ := h
    rw [hdirs] at h
    cases h
    rw [if_neg (fun hh => hc (hcon.1 hh))] at h'
    cases h'
  set bs := npUniqueRows (dirs.map (fun b => sort2 b.1 b.2)) with hbs
  have hmem : ∀ i j, (i, j) ∈ bs ↔ i ≤ j ∧ Adj panels i j := by
    intro i j
    rw [hbs, mem_npUniqueRows, List.mem_map]
    constructor
    · rintro ⟨⟨a, b⟩, hab, e⟩
      have := (mem_directedBoundaries hd hdirs (a, b)).1 hab
      unfold sort2 at e
      split at e <;> (cases e)
      · exact ⟨by assumption, this⟩
      · exact ⟨by simp only at *; omega, adj_symm this⟩
    · rintro ⟨hij, hadj⟩
      exact ⟨(i, j), (mem_directedBoundaries hd hdirs (i, j)).2 hadj, by simp [sort2, hij]⟩
  have hnd : bs.Nodup := by
    rw [hbs]
    unfold npUniqueRows
    exact ((List.perm_insertionSort _ _).nodup_iff).2 (List.nodup_dedup _)
  have hlt : ∀ b ∈ bs, b.1 ≤ b.2 ∧ b.2 < panels.length := by
    intro b hb
    have := (hmem b.1 b.2).1 hb
    exact ⟨this.1, (adj_lt this.2).2⟩
  have step : (∃ r, calcPanelBoundaryDict pick panels w = .ok r) ↔ ∃ r, mkBoundaryWeights panels dict bs w = .ok r := by
    unfold calcPanelBoundaryDict
    rw [hd]
    simp only [bind_ok, Except.ok.injEq, pure, Except.pure, exists_eq_left', hdirs, hcon.2 hc, if_true]
    constructor
    · rintro ⟨r, _, -, r', h, -⟩; exact ⟨r', h⟩
    · rintro ⟨r', h⟩; exact ⟨_, (), trivial, r', h, rfl⟩
  rw [step]
  have hkey : ∀ b ∈ bs, boundaryKey panels dict b = .ok b := by
    intro b hb
    obtain ⟨h1, h2⟩ := hlt b hb
    exact boundaryKey_ok hd b (by omega) h2 h1
  have hkey2 : ∀ (g : List ((Nat × Nat) × ℚ) → Nat × Nat → Nat × Nat → Py (List ((Nat × Nat) × ℚ))) (P : Nat × Nat → Prop)
      (_ : ∀ a b, (∃ r, g a b b = .ok r) ↔ P b) (l : List (Nat × Nat)) (_ : ∀ b ∈ l, b ∈ bs) (a : List ((Nat × Nat) × ℚ)),
      (∃ r, l.foldlM (init := a) (fun d b => do let m ← boundaryKey panels dict b; g d b m) = .ok r) ↔ ∀ b ∈ l, P b := by
    intro g P hg l
    induction l with
    | nil => intro _ a; simp [pure, Except.pure]
    | cons b l ih =>
      intro hl a
      rw [List.foldlM_cons, hkey b (hl b (by simp))]
      simp only [bind_ok, Except.ok.injEq, exists_eq_left', List.forall_mem_cons]
      constructor
      · rintro ⟨r, a', h1, h2⟩
        exact ⟨(hg a b).1 ⟨a', h1⟩, (ih (fun c hc => hl c (by simp [hc])) a').1 ⟨r, h2⟩⟩
      · rintro ⟨h1, h2⟩
        obtain ⟨a', h1⟩ := (hg a b).2 h1
        obtain ⟨r, h2⟩ := (ih (fun c hc => hl c (by simp [hc])) a').2 h2
        exact ⟨r, a', h1, h2⟩
  cases w with
  | none =>
    refine iff_of_true ?_ ⟨hn, hnb, hc, by simp⟩
    unfold mkBoundaryWeights
    exact (hkey2 (fun d _ m => .ok (dictSet d m 1)) (fun _ => True) (by simp) bs (fun _ h => h) []).2 (by simp)
  | some d =>
    have hwt : (∀ i j p q, panels[i]? = some p → panels[j]? = some q → Adj panels i j → Weighted d p.ID q.ID) ↔
        ∀ b ∈ bs, Weighted d (panels.getD b.1 ⟨0, []⟩).ID (panels.getD b.2 ⟨0, []⟩).ID := by
      constructor
      · intro h b hb
        have ha := ((hmem b.1 b.2).1 hb).2
        obtain ⟨h1, h2⟩ := adj_lt ha
        have := h b.1 b.2 _ _ (List.getElem?_eq_getElem h1) (List.getElem?_eq_getElem h2) ha
        simpa [List.getD_eq_getElem?_getD, h1, h2] using this
      · intro h i j p q hp hq ha
        rcases Nat.le_total i j with hij | hij
        · have := h (i, j) ((hmem i j).2 ⟨hij, ha⟩)
          simpa [List.getD_eq_getElem?_getD, hp, hq] using this
        · have := h (j, i) ((hmem j i).2 ⟨hij, adj_symm ha⟩)
          simp only [List.getD_eq_getElem?_getD, hp, hq, Option.getD_some] at this
          exact this.symm
    unfold mkBoundaryWeights
    simp only [Option.some.injEq, forall_eq']
    by_cases hneg : ∀ x ∈ d, 0 ≤ x.2
    swap
    · rw [if_pos]
      · refine iff_of_false ?_ (by tauto)
        rintro ⟨r, h⟩; cases h
      · rw [List.any_eq_true]
        push Not at hneg
        obtain ⟨x, hx, hx'⟩ := hneg
        exact ⟨x, hx, by simpa using hx'⟩
    rw [if_neg (by
      rw [List.any_eq_true]
      rintro ⟨x, hx, hx'⟩
      have := hneg x hx
      simp only [decide_eq_true_eq] at hx'
      linarith)]
    by_cases hW : ∀ b ∈ bs, Weighted d (panels.getD b.1 ⟨0, []⟩).ID (panels.getD b.2 ⟨0, []⟩).ID
    · rw [if_neg (by have := weighted_count panels hn d bs hnd hlt hW; omega)]
      refine iff_of_true ?_ ⟨hn, hnb, hc, hneg, hwt.2 hW⟩
      refine (hkey2 (fun a b m => do
        let x ← weightOf d (panels.getD b.1 ⟨0, []⟩).ID (panels.getD b.2 ⟨0, []⟩).ID
        return dictSet a (if x.1 then m.swap else m) x.2) (fun b => Weighted d (panels.getD b.1 ⟨0, []⟩).ID (panels.getD b.2 ⟨0, []⟩).ID)
        ?_ bs (fun _ h => h) []).2 hW
      intro a b
      rw [← weightOf_ok_iff]
      simp only [bind_ok]
      constructor
      · rintro ⟨r, x, hx, -⟩; exact ⟨x, hx⟩
      · rintro ⟨x, hx⟩; exact ⟨_, x, hx, rfl⟩
    · refine iff_of_false ?_ (fun h => hW (hwt.1 h.2.2.2.2))
      rintro ⟨r, h⟩
      split at h
      · cases h
      · apply hW
        refine (hkey2 (fun a b m => do
          let x ← weightOf d (panels.getD b.1 ⟨0, []⟩).ID (panels.getD b.2 ⟨0, []⟩).ID
          return dictSet a (if x.1 then m.swap else m) x.2) (fun b => Weighted d (panels.getD b.1 ⟨0, []⟩).ID (panels.getD b.2 ⟨0, []⟩).ID)
          ?_ bs (fun _ h => h) []).1 ⟨r, h⟩
        intro a b
        rw [← weightOf_ok_iff]
        simp only [bind_ok]
        constructor
        · rintro ⟨r, x, hx, -⟩; exact ⟨x, hx⟩
        · rintro ⟨x, hx⟩; exact ⟨_, x, hx, rfl⟩

/-- **C71.** A structure is accepted exactly when it has a panel, the IDs differ, the named neighbours exist, any two panels are joined by a chain of
neighbours and, when boundary weights are given, none is negative and each boundary has one other than zero (whatever the order of the two
IDs). In particular "Insufficient number of boundary weightings" is never the only reason. -/
theorem C71_accepted (pick : List Nat → Nat) (hpick : ∀ l, l ≠ [] → pick l ∈ l) (panels : List (Panel × PanelIds))
    (w : Option (List ((Int × Int) × ℚ))) : (∃ m, mkMultiPanel pick panels w = .ok m) ↔
      panels ≠ [] ∧ (panels.map (fun p => p.2.ID)).Nodup ∧ (∀ p ∈ panels, ∀ n ∈ p.2.neighbours, ∃ q ∈ panels, q.2.ID = n) ∧
      ConnectedPanels (panels.map (fun p => p.2)) ∧
      ∀ d, w = some d → (∀ x ∈ d, 0 ≤ x.2) ∧
        ∀ (i j : Nat) (p q : Panel × PanelIds), panels[i]? = some p → panels[j]? = some q → Adj (panels.map (fun p => p.2)) i j →
          Weighted d p.2.ID q.2.ID := by
  have key := boundaryDict_ok_iff pick hpick (panels.map (fun p => p.2)) w
  have e1 : ((panels.map (fun p => p.2)).map (·.ID)) = panels.map (fun p => p.2.ID) := by rw [List.map_map]; rfl
  have e2 : (∀ p ∈ panels.map (fun p => p.2), ∀ n ∈ p.neighbours, ∃ q ∈ panels.map (fun p => p.2), q.ID = n) ↔
      ∀ p ∈ panels, ∀ n ∈ p.2.neighbours, ∃ q ∈ panels, q.2.ID = n := by
    constructor
    · intro h p hp n hn
      obtain ⟨q, hq, e⟩ := h p.2 (List.mem_map.2 ⟨p, hp, rfl⟩) n hn
      obtain ⟨q', hq', rfl⟩ := List.mem_map.1 hq
      exact ⟨q', hq', e⟩
    · intro h p hp n hn
      obtain ⟨p', hp', rfl⟩ := List.mem_map.1 hp
      obtain ⟨q, hq, e⟩ := h p' hp' n hn
      exact ⟨q.2, List.mem_map.2 ⟨q, hq, rfl⟩, e⟩
  have e3 : ∀ d, (∀ i j p q, (panels.map (fun p => p.2))[i]? = some p → (panels.map (fun p => p.2))[j]? = some q →
      Adj (panels.map (fun p => p.2)) i j → Weighted d p.ID q.ID) ↔
      ∀ (i j : Nat) (p q : Panel × PanelIds), panels[i]? = some p → panels[j]? = some q → Adj (panels.map (fun p => p.2)) i j →
          Weighted d p.2.ID q.2.ID := by
    intro d
    constructor
    · intro h i j p q hp hq ha
      exact h i j p.2 q.2 (by rw [List.getElem?_map, hp]; rfl) (by rw [List.getElem?_map, hq]; rfl) ha
    · intro h i j p q hp hq ha
      rw [List.getElem?_map] at hp hq
      obtain ⟨p', hp', rfl⟩ := Option.map_eq_some_iff.1 hp
      obtain ⟨q', hq', rfl⟩ := Option.map_eq_some_iff.1 hq
      exact h i j p' q' hp' hq' ha
  rw [e1, e2] at key
  simp only [e3] at key
  rw [← key]
  constructor
  · rintro ⟨m, h⟩
    obtain ⟨h1, -, -, h4, -⟩ := (mkMultiPanel_iff _ _ _ _).1 h
    refine ⟨?_, _, h4⟩
    rintro rfl
    cases h1
  · rintro ⟨hne, r, hr⟩
    obtain ⟨p, ps, rfl⟩ := List.exists_cons_of_ne_nil hne
    have hM : ∃ nMax, pyMax (((p :: ps).map (fun p => p.1.nPlies))) = .ok nMax := ⟨_, rfl⟩
    obtain ⟨nMax, hM⟩ := hM
    have hT : ∃ k, oneThickest nMax 0 ((p :: ps).map (fun p => p.1)) = .ok k := by
      have hm := ((pyMax_iff _ _).1 hM).1
      obtain ⟨x, hx, hxe⟩ := List.mem_map.1 hm
      have : ∀ (l : List Panel) (i : Nat), (∃ x ∈ l, x.nPlies = nMax) → ∃ k, oneThickest nMax i l = .ok k := by
        intro l
        induction l with
        | nil => simp
        | cons y l ih =>
          intro i hy
          unfold oneThickest
          by_cases hc : y.nPlies = nMax
          · exact ⟨i, by rw [if_pos hc]⟩
          · rw [if_neg hc]
            apply ih
            obtain ⟨x, hx, hxe⟩ := hy
            rcases List.mem_cons.1 hx with rfl | hx
            · exact absurd hxe hc
            · exact ⟨x, hx, hxe⟩
      exact this _ 0 ⟨x.1, List.mem_map.2 ⟨x, hx, rfl⟩, hxe⟩
    obtain ⟨k, hT⟩ := hT
    refine ⟨⟨_, _, _, nMax, (p :: ps).map (fun p => p.1.nPlies == nMax), _, _, _,
      (((p :: ps).map (fun p => p.1.middle)).sum != 0) && nMax % 2 != 0, k, r.1, r.2⟩,
      (mkMultiPanel_iff _ _ _ _).2 ⟨rfl, hM, hT, hr, rfl, rfl, rfl, rfl, rfl, rfl, rfl⟩⟩

/-- Two panels of symmetric laminates, 3 and 4 plies, neighbours. -/
def twoPanels : List (Panel × PanelIds) :=
  [({ nPlies := 3, hasMiddle := true, middle := 2, target := [], weightsIni := List.replicate 12 1, area := 2, weighting := 1 }, ⟨7, [5]⟩),
   ({ nPlies := 4, hasMiddle := false, middle := 0, target := [], weightsIni := List.replicate 12 1, area := 3, weighting := 1 }, ⟨5, []⟩)]

/-- The hypotheses are met by a structure of two panels: accepted, with one boundary, thickest panel 1, a middle ply in the thinner one. -/
example : (∀ p ∈ twoPanels, ∃ a, mkPanel true a = .ok p.1) ∧
    mkMultiPanel (fun l => l.headD 0) twoPanels none = .ok {
      area := 5, areaPatches := 18, nMin := 3, nMax := 4, isThick := [false, true], nPlies := [3, 4], middles := [2, 0],
      hasMiddle := true, thickHasMiddle := false, indThick := 1, boundaries := [(0, 1)], boundaryWeights := [((0, 1), 1)] } := by
  constructor
  · intro p hp
    simp only [twoPanels, List.mem_cons, List.not_mem_nil, or_false] at hp
    rcases hp with rfl | rfl
    · exact ⟨{ nPlies := 3, area := 2 }, by decide +kernel⟩
    · exact ⟨{ nPlies := 4, area := 3 }, by decide +kernel⟩
  · decide +kernel

/-- **C71 (violation).** "A panel is not a neighbour of itself": a panel naming itself is accepted and is then listed twice among its own
neighbours. -/
theorem C71_self_neighbour_violation (p : Panel) : ∃ m, mkMultiPanel (fun l => l.headD 0) [(p, ⟨1, [1]⟩)] none = .ok m ∧
    neighbourPanels 1 m.boundaries = .ok [[0, 0]] := by
  have hb : calcPanelBoundaryDict (fun l => l.headD 0) [(⟨1, [1]⟩ : PanelIds)] none = .ok ([(0, 0)], [((0, 0), 1)]) := by decide +kernel
  have ht : oneThickest p.nPlies 0 [p] = .ok 0 := by simp [oneThickest]
  have hn : neighbourPanels 1 [(0, 0)] = .ok [[0, 0]] := by decide +kernel
  refine ⟨⟨_, _, p.nPlies, p.nPlies, [p.nPlies == p.nPlies], _, _, _, (([p.middle] : List Nat).sum != 0) && p.nPlies % 2 != 0, 0, [(0, 0)],
    [((0, 0), 1)]⟩, (mkMultiPanel_iff _ _ _ _).2 ⟨rfl, rfl, ht, hb, rfl, rfl, rfl, rfl, rfl, rfl, rfl⟩, hn⟩

end Bella
