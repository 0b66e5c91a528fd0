import Verif.Props.PdlTools
import Verif.Props.Spacing
/-
Property C41, continued: asymmetric layouts, layouts recovered from tables, layout rules.
Property C52: reading and checking initial layouts.
-/
namespace Bella

theorem getD_of_pyGet {α : Type} {l : List α} {i : Nat} {a d : α} (h : pyGet l i = .ok a) :
    a = l.getD i d := by
  rw [pyGet_eq_ok] at h
  rw [List.getD_eq_getElem?_getD, h]; rfl

/-- One step of the alternation. -/
def frontAt (ip k : Nat) (g : Option Table) : List Int := if k % 2 = 0 then Spec.groupRow ip g else []
def backAt (ip k : Nat) (g : Option Table) : List Int := if k % 2 = 1 then Spec.groupRow ip g else []

theorem asymParts_eq (ip : Nat) (after : List (Option Table)) (k : Nat) (gs : List (Option Table))
    (p : List Int × List Int) (h : asymParts ip (some after) k gs = .ok p) :
    p.1 = marks ((List.range gs.length).flatMap (fun i => frontAt ip (k + i) (gs.getD i none))) ∧
    p.2 = marks ((List.range gs.length).reverse.flatMap
      (fun i => backAt ip (k + i) (after.getD (k + i) none))) := by
  induction gs generalizing k p with
  | nil => simp only [asymParts, Except.ok.injEq] at h; subst h; exact ⟨rfl, rfl⟩
  | cons g gs ih =>
    simp only [asymParts, bind_ok, pure, Except.pure, Except.ok.injEq] at h
    obtain ⟨here, h1, rest, h2, rfl⟩ := h
    obtain ⟨i1, i2⟩ := ih (k + 1) rest h2
    have e1 : (List.range (g :: gs).length).flatMap (fun i => frontAt ip (k + i) ((g :: gs).getD i none))
        = frontAt ip k g ++ (List.range gs.length).flatMap
          (fun i => frontAt ip (k + 1 + i) (gs.getD i none)) := by
      rw [List.length_cons, List.range_succ_eq_map, List.flatMap_cons, List.flatMap_map]
      simp only [Nat.add_zero, List.getD_cons_zero, List.getD_cons_succ, Nat.succ_eq_add_one]
      congr 1
      apply List.flatMap_congr
      intro i _
      rw [show k + (i + 1) = k + 1 + i by omega]
    have e2 : (List.range (g :: gs).length).reverse.flatMap
          (fun i => backAt ip (k + i) (after.getD (k + i) none))
        = (List.range gs.length).reverse.flatMap
          (fun i => backAt ip (k + 1 + i) (after.getD (k + 1 + i) none)) ++
            backAt ip k (after.getD k none) := by
      rw [List.length_cons, List.range_succ_eq_map, List.reverse_cons, List.flatMap_append,
        ← List.map_reverse, List.flatMap_map]
      simp only [Nat.add_zero, Nat.succ_eq_add_one, List.flatMap_cons, List.flatMap_nil,
        List.append_nil]
      congr 1
      apply List.flatMap_congr
      intro i _
      rw [show k + (i + 1) = k + 1 + i by omega]
    rw [e1, e2]
    have key : here.1 = marks (frontAt ip k g) ∧ here.2 = marks (backAt ip k (after.getD k none)) := by
      have hgm : ∀ (g : Option Table) r, groupMarks ip g = .ok r → r = marks (Spec.groupRow ip g) := by
        intro g r hr
        cases g with
        | none => simp only [groupMarks, Except.ok.injEq] at hr; subst hr; rfl
        | some g =>
          simp only [groupMarks, bind_ok, pure, Except.pure, Except.ok.injEq] at hr
          obtain ⟨row, hr, rfl⟩ := hr
          rw [getD_of_pyGet (d := []) hr]; rfl
      by_cases hk : k % 2 = 0
      · have hk1 : ¬ (k % 2 = 1) := by omega
        simp only [asymHere, hk, if_true, bind_ok, pure, Except.pure, Except.ok.injEq] at h1
        obtain ⟨r, hr, rfl⟩ := h1
        simp [frontAt, backAt, hk]
        exact ⟨hgm _ _ hr, rfl⟩
      · have hk1 : k % 2 = 1 := by omega
        simp only [asymHere, hk, if_false, bind_ok, pure, Except.pure, Except.ok.injEq] at h1
        obtain ⟨a, ha, r, hr, rfl⟩ := h1
        simp only [frontAt, backAt, hk1, if_true]
        rw [← getD_of_pyGet (d := none) ha]
        exact ⟨rfl, hgm _ _ hr⟩
    rw [i1, i2, key.1, key.2]
    simp [marks]

/-- C41: for asymmetric laminates, each row of the layout of the laminate is the sequence of the
panel's group layouts, alternately from both faces, with -1 exactly at the drops and the plies
numbered from 1, and its length is that of the thickest panel (one more at most). -/
theorem C41_asymmetric (nP nMax : Nat) (mid : Bool) (before after : List (Option Table)) (t : Table)
    (h : globalPdl nP nMax mid false before (some after) = .ok t) :
    t.length = nP ∧ ∀ ip, ip < nP → ∃ row, t[ip]? = some row ∧
      (row.length = nMax ∨ row.length = nMax + 1) ∧
      row.length = (Spec.alternateRows ip before after).length ∧
      Spec.NumbersPlies (Spec.alternateRows ip before after) row := by
  obtain ⟨h1, _, w, hw, hrows⟩ := globalPdl_rows _ _ _ _ _ _ _ h
  have hf := mapM_inv _ _ _ h1
  have hlen := hf.length_eq
  simp only [List.length_range] at hlen
  refine ⟨hlen.symm, fun ip hip => ?_⟩
  obtain ⟨row, hr, hrow⟩ := getElem?_of_forall2 hf ip ip (by simp [hip])
  simp only [Bool.false_eq_true, if_false, bind_ok, pure, Except.pure, Except.ok.injEq] at hrow
  obtain ⟨p, e1, e2⟩ := hrow
  obtain ⟨p1, p2⟩ := asymParts_eq ip after 0 before p e1
  have e3 : p.1 ++ p.2 = marks (Spec.alternateRows ip before after) := by
    rw [p1, p2]
    simp only [Nat.zero_add, Spec.alternateRows, marks, List.map_append]
    rfl
  rw [e3] at e2
  refine ⟨row, hr, ?_, ?_, ?_⟩
  · rw [hrows row (List.mem_of_getElem? hr)]; exact hw
  · rw [← e2, length_numberRow]; simp [marks]
  · intro j x hj
    have := numberRow_marks _ [] j x hj
    rw [List.append_nil] at this
    rw [← e2]; exact this

/-- C41: nested group layouts give nested layouts of the laminate (asymmetric laminates). -/
theorem C41_asymmetric_nested (nP nMax : Nat) (mid : Bool) (before after : List (Option Table))
    (t : Table) (h : globalPdl nP nMax mid false before (some after) = .ok t) (i k : Nat)
    (hi : i < nP) (hk : k < nP)
    (hnest : Spec.Nested (Spec.alternateRows i before after) (Spec.alternateRows k before after)) :
    ∃ ri rk, t[i]? = some ri ∧ t[k]? = some rk ∧ Spec.Nested ri rk := by
  obtain ⟨_, hrows⟩ := C41_asymmetric nP nMax mid before after t h
  obtain ⟨ri, a1, a2, a3, a5⟩ := hrows i hi
  obtain ⟨rk, b1, b2, b3, b5⟩ := hrows k hk
  refine ⟨ri, rk, a1, b1, fun j hj => ?_⟩
  have hjl : j < ri.length := (List.getElem?_eq_some_iff.1 hj).1
  have h2 := (dropped_iff_of_numbers a5 (by omega)).1 hj
  have h3 := hnest j h2
  exact (dropped_iff_of_numbers b5 (List.getElem?_eq_some_iff.1 h3).1).2 h3

/-- C41: the layout of a symmetric laminate is built whenever every group has a row per panel, the
panels' rows have the same length and this length fits the thickest panel. -/
theorem C41_symmetric_total (nP nMax L : Nat) (mid : Bool) (before : List (Option Table))
    (hP : 0 < nP) (hg : ∀ g, some g ∈ before → nP ≤ g.length)
    (hL : ∀ ip, ip < nP → (Spec.groupRows ip before).length = L)
    (hw : 2 * L - (if mid then 1 else 0) = nMax ∨ 2 * L - (if mid then 1 else 0) = nMax + 1) :
    ∃ t, globalPdl nP nMax mid true before none = .ok t := by
  have key : ∀ ip, ip < nP → (do
      let h ← symHalf ip before
      (pure (mirrorRow (numberRow 0 (dropMiddle mid (h ++ h.reverse)))) : Py (List Int)))
        = .ok (symRow mid (Spec.groupRows ip before)) := by
    intro ip hip
    obtain ⟨r, hr⟩ := symHalf_ok ip before (fun g hg' => by have := hg g hg'; omega)
    rw [hr, symHalf_eq ip before r hr]
    rfl
  have hm := mapM_ok (fun ip => do
      let h ← symHalf ip before
      (pure (mirrorRow (numberRow 0 (dropMiddle mid (h ++ h.reverse)))) : Py (List Int)))
    (fun ip => symRow mid (Spec.groupRows ip before)) (List.range nP)
    (fun ip hip => key ip (List.mem_range.1 hip))
  refine ⟨(List.range nP).map (fun ip => symRow mid (Spec.groupRows ip before)), ?_⟩
  unfold globalPdl
  simp only [if_true]
  rw [hm]
  have hlens : ∀ x ∈ (List.range nP).map (fun ip => symRow mid (Spec.groupRows ip before)),
      x.length = 2 * L - (if mid then 1 else 0) := by
    intro x hx
    obtain ⟨ip, hip, rfl⟩ := List.mem_map.1 hx
    rw [(symRow_spec mid _).1, hL ip (List.mem_range.1 hip)]
  generalize hrows : (List.range nP).map (fun ip => symRow mid (Spec.groupRows ip before)) = rows at hlens
  change (match rows with
    | [] => (Except.error .indexError : Py Table)
    | r :: _ => if rows.any (fun x => x.length != r.length) then .error .valueError
      else if r.length ≠ nMax ∧ r.length ≠ nMax + 1 then .error (.exc "This should not happen")
      else .ok rows) = .ok rows
  cases rows with
  | nil =>
    have := congrArg List.length hrows
    simp at this; omega
  | cons r rs =>
    have hr := hlens r (by simp)
    have hany : ¬ ((r :: rs).any (fun x => x.length != r.length)) = true := by
      rw [List.any_eq_true]
      rintro ⟨x, hx, hne⟩
      rw [hlens x hx, hr] at hne
      simp at hne
    dsimp only
    rw [if_neg hany, if_neg (by omega)]

/-- Two covering plies and two groups in three panels: the hypotheses are met, and the layout. -/
example : globalPdl 3 10 false true [some [[0, 1], [0, 1], [0, 1]],
    some [[0, 1], [0, -1], [-1, -1]], some [[0], [0], [0]]] none =
    .ok [[1, 2, 3, 4, 5, 5, 4, 3, 2, 1], [1, 2, 3, -1, 4, 4, -1, 3, 2, 1],
      [1, 2, -1, -1, 3, 3, -1, -1, 2, 1]] := by decide +kernel

example : globalPdl 2 7 true true [none, some [[0, 1, 2], [0, -1, 1]], some [[0], [0]]] none =
    .ok [[1, 2, 3, 4, 3, 2, 1], [1, -1, 2, 3, 2, -1, 1]] := by decide +kernel

example : globalPdl 2 7 false false [some [[0], [0]], none, some [[0, 1, 2], [-1, 0, -1]], none]
    (some [none, some [[0], [0]], none, some [[0, 1], [-1, 0]]]) =
    .ok [[1, 2, 3, 4, 5, 6, 7], [1, -1, 2, -1, -1, 3, 4]] := by decide +kernel

/-! ### layouts recovered from a stacking sequence table -/

theorem marks_renumber (row : List Int) : marks (renumber 0 row) = marks row := by
  apply List.ext_getElem?
  intro j
  simp only [marks, List.getElem?_map, renumber_getElem]
  cases row[j]? with
  | none => rfl
  | some x =>
    simp only [Option.map_some, Option.some.injEq]
    by_cases hx : x = -1
    · simp [hx]
    · have : ¬ ((0 : Int) + (Spec.plyCount row j : Int) = -1) := by omega
      simp only [hx, if_false, this]

theorem slice_getElem {α : Type} (l : List α) (a b j : Nat) :
    (slice l a b)[j]? = if a + j < b then l[a + j]? else none := by
  unfold slice
  rw [List.getElem?_drop, List.getElem?_take]

/-- C41: recovering the layout from a stacking sequence table with symmetric drops and uninterrupted
covering plies (symmetric laminates without middle ply, 0 to 2 covering plies) succeeds and gives a
layout with exactly the drops of the table. -/
theorem C41_layout_of_table (sst : Table) (width nCov : Nat) (hc : nCov ≤ 2)
    (hP : 0 < sst.length) (hrow : ∀ row ∈ sst, row.length = width) (heven : width % 2 = 0)
    (hcw : nCov ≤ width / 2) (hsym : ∀ row ∈ sst, ∀ j, j < width →
      (row[j]? = some (-1) ↔ row[width - 1 - j]? = some (-1)))
    (hcov : ∀ row ∈ sst, ∀ j, j < nCov → row[j]? ≠ some (-1)) :
    ∃ t, inputPdlSym sst width nCov sst.length sst.length width false = .ok t ∧
      t.length = sst.length ∧ ∀ (ip : Nat) srow, sst[ip]? = some srow → ∃ row, t[ip]? = some row ∧
        row.length = width ∧ ∀ j : Nat, row[j]? = some (-1) ↔ srow[j]? = some (-1) := by
  -- the groups
  obtain ⟨before, hb, hgr, hge⟩ : ∃ before : List (Option Table),
      inputPdlSym sst width nCov sst.length sst.length width false =
        globalPdl sst.length width false true before none ∧
      (∀ (ip : Nat) (srow : List Int), sst[ip]? = some srow →
        (Spec.groupRows ip before).length = width / 2 ∧
        ∀ j, j < width / 2 → ((Spec.groupRows ip before)[j]? = some (-1) ↔ srow[j]? = some (-1))) ∧
      (∀ g, some g ∈ before → sst.length ≤ g.length) := by
    have main : ∀ (k : Nat) (cov : List Int), cov.length = k → k ≤ width / 2 → (∀ x ∈ cov, x ≠ -1) →
        (∀ row ∈ sst, ∀ j, j < k → row[j]? ≠ some (-1)) →
        ∀ (ip : Nat) (srow : List Int), sst[ip]? = some srow →
        (cov ++ renumber 0 (slice srow k (width / 2))).length = width / 2 ∧
        ∀ j, j < width / 2 → ((cov ++ renumber 0 (slice srow k (width / 2)))[j]? = some (-1) ↔
          srow[j]? = some (-1)) := by
      intro k cov hk hkw hcovne hcv ip srow hip
      have hm := List.mem_of_getElem? hip
      have hl := hrow srow hm
      constructor
      · rw [List.length_append, length_renumber, hk]
        simp only [slice, List.length_drop, List.length_take, hl]
        omega
      · intro j hj
        by_cases hjk : j < k
        · rw [List.getElem?_append_left (by omega), List.getElem?_eq_getElem (by omega)]
          constructor
          · intro h; exact absurd (by simpa using h) (hcovne _ (List.getElem_mem _))
          · intro h; exact absurd h (hcv srow hm j hjk)
        · rw [List.getElem?_append_right (by omega), renumber_getElem, slice_getElem, hk,
            show k + (j - k) = j by omega, if_pos hj, List.getElem?_eq_getElem (by omega)]
          simp only [Option.map_some, Option.some.injEq]
          by_cases hx : srow[j] = -1
          · simp [hx]
          · simp only [hx, if_false, iff_false]
            omega
    have hrepl : ∀ (r : List Int) (ip : Nat), ip < sst.length →
        (List.replicate sst.length r).getD ip [] = r := by
      intro r ip hip
      rw [List.getD_eq_getElem _ _ (by simpa using hip), List.getElem_replicate]
    have hcut : ∀ (f : List Int → List Int) (ip : Nat) srow, sst[ip]? = some srow →
        (sst.map f).getD ip [] = f srow := by
      intro f ip srow h
      rw [List.getD_eq_getElem?_getD, List.getElem?_map, h]; rfl
    interval_cases nCov
    · refine ⟨[none, some (sst.map (fun row => renumber 0 (slice row 0 (width / 2))))], rfl, ?_, ?_⟩
      · intro ip srow hip
        have := main 0 [] rfl (by omega) (by simp) (fun row _ j hj => by omega) ip srow hip
        simp only [Spec.groupRows, List.flatMap_cons, List.flatMap_nil, Spec.groupRow,
          hcut _ _ _ hip, List.append_nil]
        exact this
      · intro g hg; simp at hg; subst hg; simp
    · refine ⟨[some (List.replicate sst.length [0]),
        some (sst.map (fun row => renumber 0 (slice row 1 (width / 2))))], rfl, ?_, ?_⟩
      · intro ip srow hip
        have := main 1 [0] rfl (by omega) (by simp) hcov ip srow hip
        have hlt : ip < sst.length := (List.getElem?_eq_some_iff.1 hip).1
        simp only [Spec.groupRows, List.flatMap_cons, List.flatMap_nil, Spec.groupRow,
          hcut _ _ _ hip, List.append_nil, hrepl _ _ hlt]
        exact this
      · intro g hg; simp at hg; rcases hg with rfl | rfl <;> simp
    · refine ⟨[some (List.replicate sst.length [0, 1]),
        some (sst.map (fun row => renumber 0 (slice row 2 (width / 2))))], rfl, ?_, ?_⟩
      · intro ip srow hip
        have := main 2 [0, 1] rfl (by omega) (by simp) hcov ip srow hip
        have hlt : ip < sst.length := (List.getElem?_eq_some_iff.1 hip).1
        simp only [Spec.groupRows, List.flatMap_cons, List.flatMap_nil, Spec.groupRow,
          hcut _ _ _ hip, List.append_nil, hrepl _ _ hlt]
        exact this
      · intro g hg; simp at hg; rcases hg with rfl | rfl <;> simp
  rw [hb]
  obtain ⟨t, ht⟩ := C41_symmetric_total sst.length width (width / 2) false before hP hge
    (fun ip hip => (hgr ip _ (List.getElem?_eq_getElem hip)).1) (by simp; omega)
  obtain ⟨h1, h2⟩ := C41_symmetric _ _ _ _ _ ht
  refine ⟨t, ht, h1, fun ip srow hip => ?_⟩
  have hlt : ip < sst.length := (List.getElem?_eq_some_iff.1 hip).1
  have hmem := List.mem_of_getElem? hip
  obtain ⟨row, r1, _, r3, r4, r5⟩ := h2 ip hlt
  obtain ⟨g1, g2⟩ := hgr ip srow hip
  have hl : row.length = width := by rw [r3, g1]; simp; omega
  refine ⟨row, r1, hl, fun j => ?_⟩
  have hsl := hrow srow hmem
  have first : ∀ j, j < width / 2 → (row[j]? = some (-1) ↔ srow[j]? = some (-1)) := by
    intro j hj
    rw [dropped_iff_of_numbers r5 (by omega), g2 j hj]
  by_cases hj : j < width / 2
  · exact first j hj
  · by_cases hjw : j < width
    · rw [← r4, List.getElem?_reverse (by omega), hl, first _ (by omega), hsym srow hmem j hjw]
    · rw [List.getElem?_eq_none (by omega), List.getElem?_eq_none (by omega)]
      
/-- C41, violation: with a middle ply (odd number of columns) the layout can never be recovered,
the middle column is lost and the function raises. -/
theorem C41_layout_of_table_middle_ply_violation (sst : Table) (width nCov nMax : Nat) (hc : nCov ≤ 2)
    (hP : 0 < sst.length) (hrow : ∀ row ∈ sst, row.length = width) (hodd : width % 2 = 1) (hw1 : 1 < width)
    (hcw : nCov ≤ width / 2) (hw : width = nMax ∨ width = nMax + 1) :
    ∀ t, inputPdlSym sst width nCov sst.length sst.length nMax true ≠ .ok t := by
  intro t ht
  have hgr : ∀ before : List (Option Table),
      globalPdl sst.length nMax true true before none = .ok t →
      (Spec.groupRows 0 before).length = width / 2 → False := by
    intro before hb hl
    obtain ⟨_, h2⟩ := C41_symmetric _ _ _ _ _ hb
    obtain ⟨row, _, r2, r3, _, _⟩ := h2 0 hP
    rw [hl] at r3
    simp at r3
    omega
  have hr0 : ∀ k, k ≤ width / 2 → ((sst.map (fun row => renumber 0 (slice row k (width / 2)))).getD 0
      []).length = width / 2 - k := by
    intro k hk
    rw [List.getD_eq_getElem _ _ (by simpa using hP), List.getElem_map, length_renumber]
    simp only [slice, List.length_drop, List.length_take, hrow _ (List.getElem_mem hP)]
    omega
  have hrepl : ∀ (r : List Int), (List.replicate sst.length r).getD 0 [] = r := by
    intro r
    rw [List.getD_eq_getElem _ _ (by simpa using hP), List.getElem_replicate]
  interval_cases nCov
  · refine hgr [none, some (sst.map (fun row => renumber 0 (slice row 0 (width / 2))))] ht ?_
    simp only [Spec.groupRows, List.flatMap_cons, List.flatMap_nil, Spec.groupRow,
      List.append_nil, List.length_append, hr0 0 (by omega), List.length_nil]
    omega
  · refine hgr [some (List.replicate sst.length [0]),
        some (sst.map (fun row => renumber 0 (slice row 1 (width / 2))))] ht ?_
    simp only [Spec.groupRows, List.flatMap_cons, List.flatMap_nil, Spec.groupRow,
      List.append_nil, List.length_append, hr0 1 (by omega), hrepl, List.length_cons, List.length_nil]
    omega
  · refine hgr [some (List.replicate sst.length [0, 1]),
        some (sst.map (fun row => renumber 0 (slice row 2 (width / 2))))] ht ?_
    simp only [Spec.groupRows, List.flatMap_cons, List.flatMap_nil, Spec.groupRow,
      List.append_nil, List.length_append, hr0 2 (by omega), hrepl, List.length_cons, List.length_nil]
    omega

example : inputPdlSym [[45, 0, 90, 90, 0, 45], [45, -1, 90, 90, -1, 45]] 6 1 2 2 6 false =
    .ok [[1, 2, 3, 3, 2, 1], [1, -1, 2, 2, -1, 1]] := by decide +kernel
example : inputPdlSym [[45, 0, 90, 0, 45], [45, -1, 90, -1, 45]] 5 1 2 2 5 true =
    .error (.exc "This should not happen") := by decide +kernel
example : inputPdlAsym [[45, 0, 90, 0, 45], [45, -1, 90, 0, 45]] 5 1 2 2 5 false =
    .ok [[1, 2, 3, 4, 5], [1, -1, 2, 3, 4]] := by decide +kernel

/-! ### layouts per boundary, spacing rule -/

/-- C41: each boundary receives the layout prepared for its number of ply drops. -/
theorem C41_layout_per_boundary (newPdl : Table) (nUnique nDrops : List Nat)
    (hlen : newPdl.length = nUnique.length) (hnd : nUnique.Nodup) (hmem : ∀ d ∈ nDrops, d ∈ nUnique) :
    ∃ t, plyDropsAtEachBoundaries newPdl (nUnique.zip (List.range nUnique.length)) nDrops = .ok t ∧
      t.length = nDrops.length ∧ ∀ (i d k : Nat), nDrops[i]? = some d → nUnique[k]? = some d →
        t[i]? = newPdl[k]? ∧ t[i]? ≠ none := by
  have key : ∀ (d k : Nat), nUnique[k]? = some d →
      (nUnique.zip (List.range nUnique.length)).lookup d = some k := by
    intro d k hk
    have hgen : ∀ (l : List Nat) (s k : Nat), l.Nodup → l[k]? = some d →
        (l.zip (List.range' s l.length)).lookup d = some (s + k) := by
      intro l
      induction l with
      | nil => intro s k _ h; simp at h
      | cons a l ih =>
        intro s k hn h
        rw [List.length_cons, List.range'_succ, List.zip_cons_cons, List.lookup_cons]
        cases k with
        | zero => simp at h; simp [h]
        | succ k =>
          rw [List.getElem?_cons_succ] at h
          have hda : d ≠ a := by
            rintro rfl
            exact (List.nodup_cons.1 hn).1 (List.mem_of_getElem? h)
          rw [beq_eq_false_iff_ne.2 hda]
          have := ih (s + 1) k (List.nodup_cons.1 hn).2 h
          simp only [this]
          congr 1; omega
    have := hgen nUnique 0 k hnd hk
    rw [Nat.zero_add, ← List.range_eq_range'] at this
    exact this
  obtain ⟨t, ht⟩ := mapM_exists (fun d => do
      let i ← dictGet (nUnique.zip (List.range nUnique.length)) d
      pyGet newPdl i) nDrops (by
    intro d hd
    obtain ⟨k, hk⟩ := List.mem_iff_getElem?.1 (hmem d hd)
    have hkl := (List.getElem?_eq_some_iff.1 hk).1
    refine ⟨newPdl[k]'(by omega), ?_⟩
    rw [bind_ok]
    exact ⟨k, dictGet_eq_ok.2 (key d k hk), pyGet_ok (by omega)⟩)
  have hf := mapM_inv _ _ _ ht
  refine ⟨t, ht, hf.length_eq.symm, fun i d k hi hk => ?_⟩
  obtain ⟨row, hr, hrow⟩ := getElem?_of_forall2 hf i d hi
  rw [bind_ok] at hrow
  obtain ⟨k', h1, h2⟩ := hrow
  rw [dictGet_eq_ok, key d k hk, Option.some.injEq] at h1
  subst h1
  rw [pyGet_eq_ok] at h2
  rw [hr, h2]
  exact ⟨rfl, by simp⟩

example : plyDropsAtEachBoundaries [[0, 1, 2], [0, -1, 2]] ([0, 1].zip (List.range 2)) [1, 0, 1] =
    .ok [[0, -1, 2], [0, 1, 2], [0, -1, 2]] := by decide +kernel

/-- The layouts of the two panels of a boundary on the plies covering at least one of them, with
the neighbouring groups. -/
def boundaryLayouts (before after pdl : Table) (b : Nat × Nat) : Stack × Stack :=
  Spec.onCommonPlies (before.getD b.1 [] ++ pdl.getD b.1 [] ++ after.getD b.1 [])
    (before.getD b.2 [] ++ pdl.getD b.2 [] ++ after.getD b.2 [])

/-- All the entries are drops or ply numbers. -/
def LayoutEntries (t : Table) : Prop := ∀ row ∈ t, ∀ x ∈ row, -1 ≤ x

theorem ruleLayouts_eq (l1 l2 : Stack) (h1 : ∀ x ∈ l1, -1 ≤ x) : ruleLayouts l1 l2 = Spec.onCommonPlies l1 l2 := by
  unfold ruleLayouts Spec.onCommonPlies
  have : (l1.zip l2).filter (fun p => decide (p.1 ≥ 0) || p.1 != p.2) =
      (l1.zip l2).filter (fun p => decide (¬ (p.1 = -1 ∧ p.2 = -1))) := by
    apply List.filter_congr
    rintro ⟨x, y⟩ hmem
    have := h1 x (List.of_mem_zip hmem).1
    rw [Bool.eq_iff_iff]
    simp only [Bool.or_eq_true, decide_eq_true_eq, bne_iff_ne, ne_eq]
    omega
  dsimp only
  rw [this]

theorem ruleLoop_iff (m : Int) (before after pdl : Table) (hb : LayoutEntries before) (ha : LayoutEntries after)
    (hp : LayoutEntries pdl) (bs : List (Nat × Nat)) (r : Bool)
    (h : ruleLoop m before after pdl bs = .ok r) :
    r = true ↔ ∀ b ∈ bs, Spec.Spaced m (boundaryLayouts before after pdl b).1 ∧
      Spec.Spaced m (boundaryLayouts before after pdl b).2 := by
  induction bs with
  | nil => simp only [ruleLoop, Except.ok.injEq] at h; subst h; simp
  | cons b bs ih =>
    obtain ⟨i, j⟩ := b
    simp only [ruleLoop, bind_ok] at h
    obtain ⟨b1, hb1, p1, hp1, a1, ha1, b2, hb2, p2, hp2, a2, ha2, q1, hq1, q2, hq2, h⟩ := h
    have e : boundaryLayouts before after pdl (i, j) =
        ruleLayouts (b1 ++ p1 ++ a1) (b2 ++ p2 ++ a2) := by
      unfold boundaryLayouts
      rw [ruleLayouts_eq, ← getD_of_pyGet (d := []) hb1, ← getD_of_pyGet (d := []) hp1,
        ← getD_of_pyGet (d := []) ha1, ← getD_of_pyGet (d := []) hb2,
        ← getD_of_pyGet (d := []) hp2, ← getD_of_pyGet (d := []) ha2]
      intro x hx
      rw [List.mem_append, List.mem_append] at hx
      rw [pyGet_eq_ok] at hb1 hp1 ha1
      rcases hx with (hx | hx) | hx
      · exact hb _ (List.mem_of_getElem? hb1) x hx
      · exact hp _ (List.mem_of_getElem? hp1) x hx
      · exact ha _ (List.mem_of_getElem? ha1) x hx
    rw [← e] at hq1 hq2
    have hne : ∀ (s : Stack) q, calcPenaltySpacing1ss s m = .ok q → s ≠ [] := by
      rintro s q hs rfl; simp [calcPenaltySpacing1ss] at hs
    obtain ⟨r1, x1, x2, x3⟩ := C10_penalty_zero_iff _ m (hne _ _ hq1)
    obtain ⟨r2, y1, y2, y3⟩ := C10_penalty_zero_iff _ m (hne _ _ hq2)
    rw [hq1, Except.ok.injEq] at x1
    rw [hq2, Except.ok.injEq] at y1
    subst x1; subst y1
    rw [List.forall_mem_cons, ← x3, ← y3]
    by_cases hs : q1 + q2 > 0
    · rw [if_pos hs] at h
      simp only [pure, Except.pure, Except.ok.injEq] at h
      subst h
      constructor
      · intro hh; cases hh
      · rintro ⟨⟨h1, h2⟩, _⟩
        rw [h1, h2] at hs; simp at hs
    · rw [if_neg hs] at h
      rw [ih h]
      constructor
      · intro hh; exact ⟨⟨by linarith, by linarith⟩, hh⟩
      · exact fun hh => hh.2

/-- C41: the layout filter keeps, in their order, exactly the layouts which at every boundary have
at least `min_drop` plies between any two ply drops of each of the two panels, the plies covering
none of the two panels left out and the neighbouring groups taken into account. -/
theorem C41_rules (pdls : List Table) (m : Int) (bs : List (Nat × Nat)) (before after : Table)
    (hb : LayoutEntries before) (ha : LayoutEntries after) (hp : ∀ pdl ∈ pdls, LayoutEntries pdl)
    (r : List Table) (h : plyDropsRules pdls m bs (some before) (some after) = .ok r) :
    r.Sublist pdls ∧ ∀ pdl, pdl ∈ r ↔ pdl ∈ pdls ∧ ∀ b ∈ bs,
      Spec.Spaced m (boundaryLayouts before after pdl b).1 ∧
      Spec.Spaced m (boundaryLayouts before after pdl b).2 := by
  simp only [plyDropsRules, bind_ok, Option.getD_some, pure, Except.pure, Except.ok.injEq] at h
  obtain ⟨flags, hf, rfl⟩ := h
  have hf := mapM_inv _ _ _ hf
  clear * - hf hb ha hp
  induction hf with
  | nil => simp
  | @cons a fl l fs h1 h2 ih =>
    replace ih := ih (fun pdl h => hp pdl (List.mem_cons_of_mem _ h))
    have h3 := ruleLoop_iff _ _ _ _ hb ha (hp a List.mem_cons_self) _ _ h1
    cases fl with
    | true =>
      simp only [List.zip_cons_cons, List.filter_cons, if_true, List.map_cons]
      refine ⟨ih.1.cons_cons a, fun pdl => ?_⟩
      simp only [List.mem_cons, ih.2]
      constructor
      · rintro (rfl | hh)
        · exact ⟨Or.inl rfl, h3.1 rfl⟩
        · exact ⟨Or.inr hh.1, hh.2⟩
      · rintro ⟨rfl | hh, hs⟩
        · exact Or.inl rfl
        · exact Or.inr ⟨hh, hs⟩
    | false =>
      simp only [List.zip_cons_cons, List.filter_cons, Bool.false_eq_true, if_false]
      refine ⟨ih.1.cons a, fun pdl => ?_⟩
      rw [ih.2, List.mem_cons]
      constructor
      · rintro ⟨hh, hs⟩; exact ⟨Or.inr hh, hs⟩
      · rintro ⟨rfl | hh, hs⟩
        · exact absurd (h3.2 hs) (by simp)
        · exact ⟨hh, hs⟩

/-- C41: without layouts before and after, the filter never fails on tables whose rows cover the
boundaries: the assumed continuous plies keep the layouts non-empty. -/
theorem C41_rules_total (pdls : List Table) (m : Int) (bs : List (Nat × Nat))
    (h : ∀ pdl ∈ pdls, ∀ b ∈ bs, b.1 < pdl.length ∧ b.2 < pdl.length) :
    ∃ r, plyDropsRules pdls m bs none none = .ok r := by
  have key : ∀ (pdl : Table) (bs : List (Nat × Nat)), (∀ b ∈ bs, b.1 < pdl.length ∧ b.2 < pdl.length) →
      ∃ r, ruleLoop m (List.replicate pdl.length [1]) (List.replicate pdl.length [1]) pdl bs = .ok r := by
    intro pdl bs
    induction bs with
    | nil => intro _; exact ⟨true, rfl⟩
    | cons b bs ih =>
      intro hb
      obtain ⟨h1, h2⟩ := hb b (by simp)
      obtain ⟨r, hr⟩ := ih (fun b' hb' => hb b' (by simp [hb']))
      obtain ⟨i, j⟩ := b
      have g1 : ∀ k, k < pdl.length → pyGet (List.replicate pdl.length ([1] : List Int)) k = .ok [1] := by
        intro k hk
        rw [pyGet_ok (by simpa using hk)]; simp
      have hne : ∀ (l1 l2 : List Int), (ruleLayouts ([1] ++ l1 ++ [1]) ([1] ++ l2 ++ [1])).1 ≠ [] ∧
          (ruleLayouts ([1] ++ l1 ++ [1]) ([1] ++ l2 ++ [1])).2 ≠ [] := by
        intro l1 l2
        simp [ruleLayouts]
      obtain ⟨p1, e1, _⟩ := C10_penalty_zero_iff _ m (hne pdl[i] pdl[j]).1
      obtain ⟨p2, e2, _⟩ := C10_penalty_zero_iff _ m (hne pdl[i] pdl[j]).2
      refine ⟨if p1 + p2 > 0 then false else r, ?_⟩
      simp only [ruleLoop, bind_ok]
      refine ⟨_, g1 i h1, _, pyGet_ok h1, _, g1 i h1, _, g1 j h2, _, pyGet_ok h2, _, g1 j h2, _, e1,
        _, e2, ?_⟩
      by_cases hs : p1 + p2 > 0
      · simp only [hs, if_true]; rfl
      · simp only [hs, if_false]; exact hr
  obtain ⟨flags, hf⟩ := mapM_exists (fun pdl : Table =>
    ruleLoop m (List.replicate pdl.length [1]) (List.replicate pdl.length [1]) pdl bs) pdls
    (fun pdl hp => key pdl bs (h pdl hp))
  refine ⟨((pdls.zip flags).filter (·.2)).map Prod.fst, ?_⟩
  simp only [plyDropsRules, bind_ok, Option.getD_none]
  exact ⟨flags, hf, rfl⟩

example : plyDropsRules [[[0, 1, 2, 3, 4], [0, -1, -1, 3, 4]], [[0, 1, 2, 3, 4], [0, -1, 2, 3, -1]]] 2
    [(0, 1)] none none = .ok [[[0, 1, 2, 3, 4], [0, -1, 2, 3, -1]]] := by decide +kernel

/-! ### C52: initial layouts -/

/-- C52, violation: when the file holds the sheets `pdl1 .. pdl<m>`, the layouts returned are those
of the sheets followed by a second copy of the last one. -/
theorem C52_read_duplicates_last_violation (sheet : Nat → Option Table) (tables : List Table)
    (hne : tables ≠ []) (hs : ∀ k, k < tables.length → sheet (k + 1) = tables[k]?)
    (hend : sheet (tables.length + 1) = none) (fuel : Nat) (hfuel : tables.length < fuel) :
    readPdls sheet fuel 1 none [] = .ok (tables ++ [tables.getLast hne]) := by
  have gen : ∀ (fuel k : Nat) (acc : List Table) (prev : Option Table), k + acc.length = k + k →
      k ≤ tables.length → tables.length - k < fuel → acc = tables.take k →
      (0 < k → prev = tables[k - 1]?) → 
      readPdls sheet fuel (k + 1) prev acc = .ok (tables ++ [tables.getLast hne]) := by
    intro fuel
    induction fuel with
    | zero => intro k _ _ _ _ h; omega
    | succ fuel ih =>
      intro k acc prev _ hk hf hacc hprev
      unfold readPdls
      by_cases hlt : k < tables.length
      · rw [hs k hlt, List.getElem?_eq_getElem hlt]
        dsimp only
        refine ih (k + 1) _ _ (by simp [hacc]; omega) hlt (by omega) ?_ ?_
        · rw [hacc, List.take_add_one, List.getElem?_eq_getElem hlt]; rfl
        · intro _; rw [Nat.add_sub_cancel, List.getElem?_eq_getElem hlt]
      · have he : k = tables.length := by omega
        have hpos : 0 < tables.length := List.length_pos_of_ne_nil hne
        rw [he, hend]
        have hp : prev = some (tables.getLast hne) := by
          rw [hprev (by omega), he, List.getLast_eq_getElem, List.getElem?_eq_getElem (by omega)]
        rw [hp]
        simp only [hacc, he, List.take_length]
  exact gen fuel 0 [] none (by simp) (by omega) (by omega) (by simp) (by simp)

/-- C52: a file without the sheet `pdl1` is reported as an error. -/
theorem C52_read_none (sheet : Nat → Option Table) (h : sheet 1 = none) (fuel : Nat) :
    readPdls sheet (fuel + 1) 1 none [] = .error .unbound := by
  simp [readPdls, h]

theorem checkPanels_iff (plies : List Nat) (i : Nat) (rows : Table) :
    checkPanels plies i rows = .ok () ↔ ∀ (k : Nat) (row : List Int), rows[k]? = some row →
      plies[i + k]? = some (Spec.plyCount row row.length) := by
  have hcount : ∀ row : List Int, (row.filter (fun x => x != -1)).length =
      Spec.plyCount row row.length := by
    intro row; rw [Spec.plyCount, List.take_length, List.countP_eq_length_filter]
  induction rows generalizing i with
  | nil => simp [checkPanels]
  | cons row rows ih =>
    simp only [checkPanels, bind_ok, pyGet_eq_ok]
    constructor
    · rintro ⟨n, hn, h⟩
      by_cases hc : (row.filter (fun x => x != -1)).length ≠ n
      · rw [if_pos hc] at h; cases h
      · rw [if_neg hc] at h
        replace h := (ih _).1 h
        intro k r hr
        cases k with
        | zero =>
          simp at hr; subst hr
          rw [Nat.add_zero, hn, ← hcount]; simp at hc; rw [hc]
        | succ k =>
          rw [List.getElem?_cons_succ] at hr
          rw [show i + (k + 1) = i + 1 + k by omega]
          exact h k r hr
    · intro h
      refine ⟨Spec.plyCount row row.length, h 0 row (by simp), ?_⟩
      rw [if_neg (by rw [hcount]; simp)]
      refine (ih _).2 ?_
      intro k r hr
      rw [show i + 1 + k = i + (k + 1) by omega]
      exact h (k + 1) r (by simpa using hr)

/-- C52: initial layouts are accepted exactly if each has one row per panel and each row has the
number of plies of its panel. -/
theorem C52_check_iff (plies : List Nat) (pdls : List Table) :
    checkPdlsIni plies pdls = .ok () ↔ ∀ pdl ∈ pdls, pdl.length = plies.length ∧
      ∀ (k : Nat) (row : List Int), pdl[k]? = some row →
        plies[k]? = some (Spec.plyCount row row.length) := by
  induction pdls with
  | nil => simp [checkPdlsIni]
  | cons pdl pdls ih =>
    rw [List.forall_mem_cons, ← ih]
    rw [checkPdlsIni]
    by_cases hl : pdl.length = plies.length
    · rw [if_neg (by simpa using hl), bind_ok]
      constructor
      · rintro ⟨u, h1, h2⟩
        refine ⟨⟨hl, ?_⟩, h2⟩
        have := (checkPanels_iff plies 0 pdl).1 h1
        simpa using this
      · rintro ⟨⟨_, h1⟩, h2⟩
        exact ⟨(), (checkPanels_iff plies 0 pdl).2 (by simpa using h1), h2⟩
    · rw [if_pos (by simpa using hl)]
      constructor
      · intro h; cases h
      · rintro ⟨⟨h, _⟩, _⟩; exact absurd h hl

example : checkPdlsIni [3, 2] [[[1, 2, 3], [1, -1, 2]]] = .ok () := by decide +kernel
example : checkPdlsIni [3, 3] [[[1, 2, 3], [1, -1, 2]]] =
    .error (.exc "Initial ply drop layout with wrong number of plies per panel") := by decide +kernel
example : readPdls (fun k => if k = 1 then some [[1, 2]] else if k = 2 then some [[2, 1]] else none) 9 1
    none [] = .ok [[[1, 2]], [[2, 1]], [[2, 1]]] := by decide +kernel

end Bella
