import Verif.Props.Reduced
/-
Property C47: the step tables of the thick-to-thin and thin-to-thick repair walk through the panels
of the blending strip, one ply (or one pair of plies) at a time.
-/
namespace Bella

theorem sorted_getD {u : List Nat} (h : u.Pairwise (· < ·)) {i j : Nat} (hij : i < j)
    (hj : j < u.length) : u.getD i 0 < u.getD j 0 := by
  have := List.pairwise_iff_getElem.1 h i j (by omega) hj hij
  simpa [List.getD_eq_getElem?_getD, hj, show i < u.length by omega] using this

/-- What one row of the thick-to-thin tables must satisfy. -/
def ThinOK (u : List Nat) (k : Int) (indRef : Nat) (nRef : Int) (i : Nat) (s : Step) : Prop :=
  s.nBefore = nRef - k * i ∧ s.nAfter = s.nBefore - k ∧
  s.indPanel + 1 < u.length ∧ (u.getD s.indPanel 0 : Int) ≤ s.nAfter ∧
  s.nBefore ≤ (u.getD (s.indPanel + 1) 0 : Int) ∧
  (s.newBoundary = true ↔ s.nBefore = (u.getD (s.indPanel + 1) 0 : Int)) ∧
  s.indPanel + s.nDesigned + 1 = indRef

theorem thinSteps_spec (u : List Nat) (hu : u.Pairwise (· < ·)) (k : Int) (hk : k = 1 ∨ k = 2)
    (hdvd : ∀ i j, i < u.length → j < u.length → k ∣ (u.getD i 0 : Int) - u.getD j 0)
    (indRef : Nat) (nRef : Int) (hd0 : k ∣ nRef - u.getD 0 0) :
    ∀ (m : Nat) (s : Step) (i0 : Nat), ThinOK u k indRef nRef i0 s →
      s.nAfter - u.getD 0 0 = k * m →
      ∀ (i : Nat) (t : Step), (thinSteps u k m s)[i]? = some t → ThinOK u k indRef nRef (i0 + 1 + i) t := by
  intro m
  induction m with
  | zero => intro s i0 _ _ i t ht; simp [thinSteps] at ht
  | succ m ih =>
    intro s i0 hs hm i t ht
    have key : ThinOK u k indRef nRef (i0 + 1)
        (if s.nAfter - k < (u.getD s.indPanel 0 : Nat) then
          ⟨s.indPanel - 1, s.nBefore - k, s.nAfter - k, true, s.nDesigned + 1⟩
        else ⟨s.indPanel, s.nBefore - k, s.nAfter - k, false, s.nDesigned⟩) := by
      obtain ⟨h1, h2, h3, h4, h5, h6, h7⟩ := hs
      have e1 : k * ((i0 + 1 : Nat) : Int) = k * i0 + k := by push_cast; ring
      have d1 := hdvd s.indPanel 0 (by omega) (by omega)
      have hm' : s.nAfter - u.getD 0 0 = k * m + k := by rw [hm]; push_cast; ring
      have hkm : 0 ≤ k * (m : Int) := by rcases hk with rfl | rfl <;> omega
      have dk : k ∣ k * (m : Int) := Dvd.intro _ rfl
      split
      · rename_i hc
        have e : s.nAfter = (u.getD s.indPanel 0 : Int) := by
          have : s.nAfter = k * m + k + u.getD 0 0 := by omega
          rcases hk with rfl | rfl <;> omega
        have hpos : 0 < s.indPanel := by
          rcases Nat.eq_zero_or_pos s.indPanel with h0 | h0
          · rw [h0] at e; exfalso; rcases hk with rfl | rfl <;> omega
          · exact h0
        have hlt := sorted_getD hu (i := s.indPanel - 1) (j := s.indPanel) (by omega) (by omega)
        have d2 := hdvd s.indPanel (s.indPanel - 1) (by omega) (by omega)
        have e3 : s.indPanel - 1 + 1 = s.indPanel := by omega
        refine ⟨?_, ?_, ?_, ?_, ?_, ?_, ?_⟩
        · simp only; rw [e1]; omega
        · simp only; omega
        · simp only; omega
        · simp only; rcases hk with rfl | rfl <;> omega
        · simp only [e3]; omega
        · simp only [e3, true_iff]; omega
        · simp only; omega
      · rename_i hc
        refine ⟨?_, ?_, h3, ?_, ?_, ?_, h7⟩
        · simp only; rw [e1]; omega
        · simp only; omega
        · simp only; omega
        · simp only; rcases hk with rfl | rfl <;> omega
        · simp only [Bool.false_eq_true, false_iff]; rcases hk with rfl | rfl <;> omega
    have hnext : (if s.nAfter - k < (u.getD s.indPanel 0 : Nat) then
          (⟨s.indPanel - 1, s.nBefore - k, s.nAfter - k, true, s.nDesigned + 1⟩ : Step)
        else ⟨s.indPanel, s.nBefore - k, s.nAfter - k, false, s.nDesigned⟩).nAfter - u.getD 0 0
          = k * m := by
      have hm' : s.nAfter - u.getD 0 0 = k * m + k := by rw [hm]; push_cast; ring
      split <;> (simp only; omega)
    unfold thinSteps at ht
    cases i with
    | zero =>
      simp only [List.getElem?_cons_zero, Option.some.injEq] at ht
      rw [← ht]
      exact key
    | succ i =>
      simp only [List.getElem?_cons_succ] at ht
      have := ih _ (i0 + 1) key hnext i t ht
      rw [show i0 + 1 + (i + 1) = i0 + 1 + 1 + i by omega]
      exact this

theorem thinSteps_length (u : List Nat) (k : Int) (m : Nat) (s : Step) :
    (thinSteps u k m s).length = m := by
  induction m generalizing s with
  | zero => rfl
  | succ m ih => unfold thinSteps; simp [ih]

theorem thickSteps_length (u : List Nat) (k : Int) (m : Nat) (s : Step) :
    (thickSteps u k m s).length = m := by
  induction m generalizing s with
  | zero => rfl
  | succ m ih => unfold thickSteps; simp [ih]

/-- What one row of the thin-to-thick tables must satisfy. -/
def ThickOK (u : List Nat) (k : Int) (indRef : Nat) (nRef : Int) (i : Nat) (s : Step) : Prop :=
  s.nBefore = nRef + k * i ∧ s.nAfter = s.nBefore + k ∧ 1 ≤ s.indPanel ∧
  s.indPanel < u.length ∧ s.nAfter ≤ (u.getD s.indPanel 0 : Int) ∧
  (u.getD (s.indPanel - 1) 0 : Int) ≤ s.nBefore ∧
  (s.newBoundary = true ↔ s.nBefore = (u.getD (s.indPanel - 1) 0 : Int)) ∧
  s.indPanel = indRef + s.nDesigned + 1

theorem thickSteps_spec (u : List Nat) (hu : u.Pairwise (· < ·)) (k : Int) (hk : k = 1 ∨ k = 2)
    (hdvd : ∀ i j, i < u.length → j < u.length → k ∣ (u.getD i 0 : Int) - u.getD j 0)
    (indRef : Nat) (nRef : Int) :
    ∀ (m : Nat) (s : Step) (i0 : Nat), ThickOK u k indRef nRef i0 s →
      u.getD (u.length - 1) 0 - s.nAfter = k * m →
      ∀ (i : Nat) (t : Step), (thickSteps u k m s)[i]? = some t → ThickOK u k indRef nRef (i0 + 1 + i) t := by
  intro m
  induction m with
  | zero => intro s i0 _ _ i t ht; simp [thickSteps] at ht
  | succ m ih =>
    intro s i0 hs hm i t ht
    have key : ThickOK u k indRef nRef (i0 + 1)
        (if s.nAfter + k > (u.getD s.indPanel 0 : Nat) then
          ⟨s.indPanel + 1, s.nBefore + k, s.nAfter + k, true, s.nDesigned + 1⟩
        else ⟨s.indPanel, s.nBefore + k, s.nAfter + k, false, s.nDesigned⟩) := by
      obtain ⟨h1, h2, h3, h4, h5, h6, h7, h8⟩ := hs
      have e1 : k * ((i0 + 1 : Nat) : Int) = k * i0 + k := by push_cast; ring
      have d1 := hdvd s.indPanel (u.length - 1) (by omega) (by omega)
      have hm' : u.getD (u.length - 1) 0 - s.nAfter = k * m + k := by rw [hm]; push_cast; ring
      have hkm : 0 ≤ k * (m : Int) := by rcases hk with rfl | rfl <;> omega
      split
      · rename_i hc
        have e : s.nAfter = (u.getD s.indPanel 0 : Int) := by
          rcases hk with rfl | rfl <;> omega
        have hpos : s.indPanel + 1 < u.length := by
          by_contra h0
          have : s.indPanel = u.length - 1 := by omega
          rw [this] at e; rcases hk with rfl | rfl <;> omega
        have hlt := sorted_getD hu (i := s.indPanel) (j := s.indPanel + 1) (by omega) (by omega)
        have d2 := hdvd s.indPanel (s.indPanel + 1) (by omega) (by omega)
        refine ⟨?_, ?_, ?_, ?_, ?_, ?_, ?_, ?_⟩
        · simp only; rw [e1]; omega
        · simp only; omega
        · simp only; omega
        · simp only; omega
        · simp only; rcases hk with rfl | rfl <;> omega
        · simp only [Nat.add_sub_cancel]; omega
        · simp only [Nat.add_sub_cancel, true_iff]; omega
        · simp only; omega
      · rename_i hc
        refine ⟨?_, ?_, h3, h4, ?_, ?_, ?_, h8⟩
        · simp only; rw [e1]; omega
        · simp only; omega
        · simp only; omega
        · simp only; rcases hk with rfl | rfl <;> omega
        · simp only [Bool.false_eq_true, false_iff]; rcases hk with rfl | rfl <;> omega
    have hnext : u.getD (u.length - 1) 0 - (if s.nAfter + k > (u.getD s.indPanel 0 : Nat) then
          (⟨s.indPanel + 1, s.nBefore + k, s.nAfter + k, true, s.nDesigned + 1⟩ : Step)
        else ⟨s.indPanel, s.nBefore + k, s.nAfter + k, false, s.nDesigned⟩).nAfter
          = k * m := by
      have hm' : u.getD (u.length - 1) 0 - s.nAfter = k * m + k := by rw [hm]; push_cast; ring
      split <;> (simp only; omega)
    unfold thickSteps at ht
    cases i with
    | zero =>
      simp only [List.getElem?_cons_zero, Option.some.injEq] at ht
      rw [← ht]
      exact key
    | succ i =>
      simp only [List.getElem?_cons_succ] at ht
      have := ih _ (i0 + 1) key hnext i t ht
      rw [show i0 + 1 + (i + 1) = i0 + 1 + 1 + i by omega]
      exact this

theorem getElem?_of_getD {u : List Nat} {i : Nat} (h : i < u.length) : u[i]? = some (u.getD i 0) := by
  simp [List.getD_eq_getElem?_getD, h]

/-- C47: the thick-to-thin tables remove `k` plies per step (two for symmetric laminates), from the
ply count of the reference panel to that of the thinnest panel; the row of a step names the panel
whose ply count lies below and whose neighbour's lies above, a new boundary is signalled exactly when
the step starts at the ply count of a panel, and the panels designed so far are counted. -/
theorem C47_thick_to_thin_steps (plies : List Nat) (sym : Bool) (nRef : Int)
    (bs : List (Nat × Nat)) (bw : List ((Nat × Nat) × ℚ)) (r : Reduced)
    (h : mkReduced plies sym nRef bs bw = .ok r)
    (hpar : sym = true → ∀ n ∈ plies, ∀ m ∈ plies, n % 2 = m % 2) (k : Nat)
    (hk : k = if sym then 2 else 1) :
    ∃ nref n0 : Nat, r.nPlies[r.indRef]? = some nref ∧ r.nPlies[0]? = some n0 ∧
      n0 + k * r.thin.length = nref ∧
      ∀ (i : Nat) (s : Step), r.thin[i]? = some s →
        s.nBefore = (nref : Int) - k * i ∧ s.nAfter = s.nBefore - k ∧
        ∃ lo hi : Nat, r.nPlies[s.indPanel]? = some lo ∧ r.nPlies[s.indPanel + 1]? = some hi ∧
          (lo : Int) ≤ s.nAfter ∧ s.nBefore ≤ hi ∧ (s.newBoundary = true ↔ s.nBefore = hi) ∧
          s.indPanel + s.nDesigned + 1 = r.indRef := by
  obtain ⟨hu, hmem, _⟩ := C15_reduction plies sym nRef bs bw r h
  obtain ⟨m, hm, _⟩ := C16_reference_panel plies sym nRef bs bw r h
  obtain ⟨h1, _, _, _, _, _, _, hthin, _⟩ := mkReduced_inv h
  rw [← h1] at hthin
  have hir : r.indRef < r.nPlies.length := (List.getElem?_eq_some_iff.1 hm).1
  have hkk : (k : Int) = 1 ∨ (k : Int) = 2 := by cases sym <;> simp [hk]
  have hdvd : ∀ i j, i < r.nPlies.length → j < r.nPlies.length →
      (k : Int) ∣ (r.nPlies.getD i 0 : Int) - r.nPlies.getD j 0 := by
    intro i j hi hj
    cases hs : sym with
    | false => rw [hk, hs]; simp
    | true =>
      rw [hk, hs]
      have := hpar hs _ ((hmem _).1 (List.getElem_mem hi)) _ ((hmem _).1 (List.getElem_mem hj))
      have e1 : r.nPlies.getD i 0 = r.nPlies[i] := by simp [List.getD_eq_getElem?_getD, hi]
      have e2 : r.nPlies.getD j 0 = r.nPlies[j] := by simp [List.getD_eq_getElem?_getD, hj]
      rw [e1, e2]
      simp only [if_true]
      push_cast
      omega
  have hd0 := hdvd r.indRef 0 hir (by omega)
  have hle : r.nPlies.getD 0 0 ≤ r.nPlies.getD r.indRef 0 := by
    rcases Nat.eq_zero_or_pos r.indRef with h0 | h0
    · rw [h0]
    · exact (sorted_getD hu h0 hir).le
  have hsteps : r.nPlies.getD 0 0 +
      k * ((r.nPlies.getD r.indRef 0 - r.nPlies.getD 0 0) / k) = r.nPlies.getD r.indRef 0 := by
    rcases hkk with h2 | h2 <;>
    · have : k = 1 ∨ k = 2 := by omega
      rcases this with rfl | rfl <;> omega
  refine ⟨r.nPlies.getD r.indRef 0, r.nPlies.getD 0 0, getElem?_of_getD hir,
    getElem?_of_getD (by omega), ?_⟩
  cases hn : (r.nPlies.getD r.indRef 0 - r.nPlies.getD 0 0) / k with
  | zero =>
    rw [hn] at hsteps
    have : r.thin = [] := by rw [hthin]; unfold thinTable; simp only [← hk, hn]
    rw [this]
    exact ⟨by simpa using hsteps, by simp⟩
  | succ m =>
    rw [hn] at hsteps
    have e : r.thin = ⟨r.indRef - 1, r.nPlies.getD r.indRef 0,
        (r.nPlies.getD r.indRef 0 : Int) - k, true, 0⟩ ::
        thinSteps r.nPlies k m ⟨r.indRef - 1, r.nPlies.getD r.indRef 0,
        (r.nPlies.getD r.indRef 0 : Int) - k, true, 0⟩ := by
      rw [hthin]; unfold thinTable; simp only [← hk, hn]
    have hmk : (k : Int) * ((m + 1 : Nat) : Int) = k * m + k := by push_cast; ring
    have hst : (r.nPlies.getD 0 0 : Int) + k * ((m + 1 : Nat) : Int) = r.nPlies.getD r.indRef 0 := by
      exact_mod_cast hsteps
    have hkm : 0 ≤ (k : Int) * m := by positivity
    have hrpos : 0 < r.indRef := by
      rcases Nat.eq_zero_or_pos r.indRef with h0 | h0
      · rw [h0] at hst; exfalso; omega
      · exact h0
    have hlt := sorted_getD hu (i := r.indRef - 1) (j := r.indRef) (by omega) (by omega)
    have d2 := hdvd r.indRef (r.indRef - 1) (by omega) (by omega)
    have e3 : r.indRef - 1 + 1 = r.indRef := by omega
    have h0 : ThinOK r.nPlies k r.indRef (r.nPlies.getD r.indRef 0) 0
        ⟨r.indRef - 1, r.nPlies.getD r.indRef 0, (r.nPlies.getD r.indRef 0 : Int) - k, true, 0⟩ := by
      refine ⟨by simp, rfl, by simp only; omega, ?_, ?_, ?_, ?_⟩
      · simp only
        generalize (k : Int) = K at *
        rcases hkk with rfl | rfl <;> omega
      · simp only [e3]; omega
      · simp only [e3, true_iff]
      · simp only; omega
    have all : ∀ (i : Nat) (s : Step), r.thin[i]? = some s →
        ThinOK r.nPlies k r.indRef (r.nPlies.getD r.indRef 0) i s := by
      intro i s hs
      rw [e] at hs
      cases i with
      | zero => simp only [List.getElem?_cons_zero, Option.some.injEq] at hs; rw [← hs]; exact h0
      | succ i =>
        simp only [List.getElem?_cons_succ] at hs
        have := thinSteps_spec r.nPlies hu k hkk hdvd r.indRef _ hd0 m _ 0 h0
          (by simp only; omega) i s hs
        rw [show i + 1 = 0 + 1 + i by omega]
        exact this
    refine ⟨?_, ?_⟩
    · rw [e]; simp only [List.length_cons, thinSteps_length]; exact hsteps
    · intro i s hs
      obtain ⟨a1, a2, a3, a4, a5, a6, a7⟩ := all i s hs
      exact ⟨a1, a2, _, _, getElem?_of_getD (by omega), getElem?_of_getD a3, a4, a5, a6, a7⟩

/-- C47, thin-to-thick tables. -/
theorem C47_thin_to_thick_steps (plies : List Nat) (sym : Bool) (nRef : Int)
    (bs : List (Nat × Nat)) (bw : List ((Nat × Nat) × ℚ)) (r : Reduced)
    (h : mkReduced plies sym nRef bs bw = .ok r)
    (hpar : sym = true → ∀ n ∈ plies, ∀ m ∈ plies, n % 2 = m % 2) (k : Nat)
    (hk : k = if sym then 2 else 1) :
    ∃ nref nmax : Nat, r.nPlies[r.indRef]? = some nref ∧
      r.nPlies[r.nPlies.length - 1]? = some nmax ∧
      nref + k * r.thick.length = nmax ∧
      ∀ (i : Nat) (s : Step), r.thick[i]? = some s →
        s.nBefore = (nref : Int) + k * i ∧ s.nAfter = s.nBefore + k ∧ 1 ≤ s.indPanel ∧
        ∃ lo hi : Nat, r.nPlies[s.indPanel - 1]? = some lo ∧ r.nPlies[s.indPanel]? = some hi ∧
          (lo : Int) ≤ s.nBefore ∧ s.nAfter ≤ hi ∧ (s.newBoundary = true ↔ s.nBefore = lo) ∧
          s.indPanel = r.indRef + s.nDesigned + 1 := by
  obtain ⟨hu, hmem, _⟩ := C15_reduction plies sym nRef bs bw r h
  obtain ⟨m, hm, _⟩ := C16_reference_panel plies sym nRef bs bw r h
  obtain ⟨h1, _, _, _, _, _, _, _, hthick⟩ := mkReduced_inv h
  rw [← h1] at hthick
  have hir : r.indRef < r.nPlies.length := (List.getElem?_eq_some_iff.1 hm).1
  have hkk : (k : Int) = 1 ∨ (k : Int) = 2 := by cases sym <;> simp [hk]
  have hdvd : ∀ i j, i < r.nPlies.length → j < r.nPlies.length →
      (k : Int) ∣ (r.nPlies.getD i 0 : Int) - r.nPlies.getD j 0 := by
    intro i j hi hj
    cases hs : sym with
    | false => rw [hk, hs]; simp
    | true =>
      rw [hk, hs]
      have := hpar hs _ ((hmem _).1 (List.getElem_mem hi)) _ ((hmem _).1 (List.getElem_mem hj))
      have e1 : r.nPlies.getD i 0 = r.nPlies[i] := by simp [List.getD_eq_getElem?_getD, hi]
      have e2 : r.nPlies.getD j 0 = r.nPlies[j] := by simp [List.getD_eq_getElem?_getD, hj]
      rw [e1, e2]
      simp only [if_true]
      push_cast
      omega
  have hd0 := hdvd (r.nPlies.length - 1) r.indRef (by omega) hir
  have hle : r.nPlies.getD r.indRef 0 ≤ r.nPlies.getD (r.nPlies.length - 1) 0 := by
    rcases Nat.lt_or_ge r.indRef (r.nPlies.length - 1) with h0 | h0
    · exact (sorted_getD hu h0 (by omega)).le
    · rw [show r.indRef = r.nPlies.length - 1 by omega]
  have hsteps : r.nPlies.getD r.indRef 0 +
      k * ((r.nPlies.getD (r.nPlies.length - 1) 0 - r.nPlies.getD r.indRef 0) / k)
        = r.nPlies.getD (r.nPlies.length - 1) 0 := by
    rcases hkk with h2 | h2 <;>
    · have : k = 1 ∨ k = 2 := by omega
      rcases this with rfl | rfl <;> omega
  refine ⟨r.nPlies.getD r.indRef 0, r.nPlies.getD (r.nPlies.length - 1) 0, getElem?_of_getD hir,
    getElem?_of_getD (by omega), ?_⟩
  cases hn : (r.nPlies.getD (r.nPlies.length - 1) 0 - r.nPlies.getD r.indRef 0) / k with
  | zero =>
    rw [hn] at hsteps
    have : r.thick = [] := by rw [hthick]; unfold thickTable; simp only [← hk, hn]
    rw [this]
    exact ⟨by simpa using hsteps, by simp⟩
  | succ m =>
    rw [hn] at hsteps
    have e : r.thick = ⟨r.indRef + 1, r.nPlies.getD r.indRef 0,
        (r.nPlies.getD r.indRef 0 : Int) + k, true, 0⟩ ::
        thickSteps r.nPlies k m ⟨r.indRef + 1, r.nPlies.getD r.indRef 0,
        (r.nPlies.getD r.indRef 0 : Int) + k, true, 0⟩ := by
      rw [hthick]; unfold thickTable; simp only [← hk, hn]
    have hmk : (k : Int) * ((m + 1 : Nat) : Int) = k * m + k := by push_cast; ring
    have hst : (r.nPlies.getD r.indRef 0 : Int) + k * ((m + 1 : Nat) : Int)
        = r.nPlies.getD (r.nPlies.length - 1) 0 := by
      exact_mod_cast hsteps
    have hkm : 0 ≤ (k : Int) * m := by positivity
    have hrlt : r.indRef + 1 < r.nPlies.length := by
      by_contra h0
      rw [show r.indRef = r.nPlies.length - 1 by omega] at hst
      omega
    have hlt := sorted_getD hu (i := r.indRef) (j := r.indRef + 1) (by omega) (by omega)
    have d2 := hdvd r.indRef (r.indRef + 1) (by omega) (by omega)
    have h0 : ThickOK r.nPlies k r.indRef (r.nPlies.getD r.indRef 0) 0
        ⟨r.indRef + 1, r.nPlies.getD r.indRef 0, (r.nPlies.getD r.indRef 0 : Int) + k, true, 0⟩ := by
      refine ⟨by simp, rfl, by simp, hrlt, ?_, ?_, ?_, ?_⟩
      · simp only
        generalize (k : Int) = K at *
        rcases hkk with rfl | rfl <;> omega
      · simp
      · simp
      · simp
    have all : ∀ (i : Nat) (s : Step), r.thick[i]? = some s →
        ThickOK r.nPlies k r.indRef (r.nPlies.getD r.indRef 0) i s := by
      intro i s hs
      rw [e] at hs
      cases i with
      | zero => simp only [List.getElem?_cons_zero, Option.some.injEq] at hs; rw [← hs]; exact h0
      | succ i =>
        simp only [List.getElem?_cons_succ] at hs
        have := thickSteps_spec r.nPlies hu k hkk hdvd r.indRef _ m _ 0 h0
          (by simp only; omega) i s hs
        rw [show i + 1 = 0 + 1 + i by omega]
        exact this
    refine ⟨?_, ?_⟩
    · rw [e]; simp only [List.length_cons, thickSteps_length]; exact hsteps
    · intro i s hs
      obtain ⟨a1, a2, a3, a4, a5, a6, a7, a8⟩ := all i s hs
      exact ⟨a1, a2, a3, _, _, getElem?_of_getD (by omega), getElem?_of_getD a4, a6, a5, a7, a8⟩

theorem thinSteps_parity (u : List Nat) (q : Int) : ∀ (m : Nat) (s : Step), s.nAfter % 2 = q →
    ∀ t ∈ thinSteps u 2 m s, t.nAfter % 2 = q := by
  intro m
  induction m with
  | zero => intro s _ t ht; simp [thinSteps] at ht
  | succ m ih =>
    intro s hs t ht
    unfold thinSteps at ht
    dsimp only at ht
    rcases List.mem_cons.1 ht with rfl | ht
    · split <;> (simp only; omega)
    · exact ih _ (by split <;> (simp only; omega)) t ht

theorem thickSteps_parity (u : List Nat) (q : Int) : ∀ (m : Nat) (s : Step), s.nAfter % 2 = q →
    ∀ t ∈ thickSteps u 2 m s, t.nAfter % 2 = q := by
  intro m
  induction m with
  | zero => intro s _ t ht; simp [thickSteps] at ht
  | succ m ih =>
    intro s hs t ht
    unfold thickSteps at ht
    dsimp only at ht
    rcases List.mem_cons.1 ht with rfl | ht
    · split <;> (simp only; omega)
    · exact ih _ (by split <;> (simp only; omega)) t ht

/-- C47 (violated): in a symmetric structure, no step of the tables ends at the ply count of a panel whose ply count has not the
parity of the one of the reference panel: such a panel is never designed by the repair. -/
theorem C47_other_parity_never_designed_violation (plies : List Nat) (nRef : Int)
    (bs : List (Nat × Nat)) (bw : List ((Nat × Nat) × ℚ)) (r : Reduced)
    (h : mkReduced plies true nRef bs bw = .ok r) (n nref : Nat) (href : r.nPlies[r.indRef]? = some nref)
    (hn : n % 2 ≠ nref % 2) :
    (∀ s ∈ r.thin, s.nAfter ≠ n) ∧ ∀ s ∈ r.thick, s.nAfter ≠ n := by
  obtain ⟨h1, _, _, _, _, _, _, hthin, hthick⟩ := mkReduced_inv h
  rw [← h1] at hthin hthick
  have e : r.nPlies.getD r.indRef 0 = nref := by simp [List.getD_eq_getElem?_getD, href]
  constructor
  · intro s hs heq
    rw [hthin] at hs
    unfold thinTable at hs
    dsimp only at hs
    rw [e] at hs
    have key : s.nAfter % 2 = (nref : Int) % 2 := by
      split at hs
      · cases hs
      · rcases List.mem_cons.1 hs with rfl | hs
        · simp only [if_true]; omega
        · exact thinSteps_parity _ _ _ _ (by simp only [if_true]; omega) s hs
    omega
  · intro s hs heq
    rw [hthick] at hs
    unfold thickTable at hs
    dsimp only at hs
    rw [e] at hs
    have key : s.nAfter % 2 = (nref : Int) % 2 := by
      split at hs
      · cases hs
      · rcases List.mem_cons.1 hs with rfl | hs
        · simp only [if_true]; omega
        · exact thickSteps_parity _ _ _ _ (by simp only [if_true]; omega) s hs
    omega

/-- C47, violation: with a middle ply in the thick panels only (ply counts 13 and 10, accepted by
the constructor), the thick-to-thin table of a symmetric structure stops at 11 plies, although the
thinnest panel has 10. -/
theorem C47_mixed_parity_violation :
    ∃ r, mkReduced [13, 10] true 13 [] [] = .ok r ∧ r.nPlies = [10, 13] ∧
      r.thin.map (·.nAfter) = [11] := by
  refine ⟨⟨[10, 13], [1, 0], [1, 0], 1, [], [], [⟨0, 13, 11, true, 0⟩], []⟩, ?_, rfl, rfl⟩
  decide +kernel

/-- The hypotheses of C15, C16 and C47 are met: three panels, symmetric, reference in the middle. -/
example : ∃ r, mkReduced [16, 12, 20, 16] true 16 [(0, 1), (0, 2)] [((0, 1), 1), ((0, 2), 3)] = .ok r ∧
    r.nPlies = [12, 16, 20] ∧ r.indRef = 1 ∧ r.thin.map (·.nAfter) = [14, 12] ∧
    r.thick.map (·.nAfter) = [18, 20] := by
  refine ⟨⟨[12, 16, 20], [1, 0, 2], [1, 0, 2, 1], 1, [(0, 1), (1, 2)], [((0, 1), 1), ((1, 2), 3)],
    [⟨0, 16, 14, true, 0⟩, ⟨0, 14, 12, false, 0⟩], [⟨2, 16, 18, true, 0⟩, ⟨2, 18, 20, false, 0⟩]⟩,
    ?_, rfl, rfl, rfl, rfl⟩
  decide +kernel

end Bella
