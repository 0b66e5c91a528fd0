import Verif.Proofs.Common
import Verif.Proofs.Monad
import Verif.Model.PdlTools
import Verif.Spec.PdlGroups
import Verif.Props.Positions
/-
Property C41: ply drop layouts of the groups and of the laminate.
-/
namespace Bella

/-! ### format_ply_drops -/

theorem formatDropsRow_spec (n : Nat) (ds : List Nat) (row : List Int) (hl : row.length = n) :
    (∀ d ∈ ds, d < n) →
      ∃ r, formatDropsRow n ds row = .ok r ∧ r.length = n ∧
        ∀ j, j < n → r[j]? = if j ∈ ds then some (-1) else row[j]? := by
  induction ds generalizing row with
  | nil => intro _; exact ⟨row, rfl, hl, fun j _ => by simp⟩
  | cons d ds ih =>
    intro h
    obtain ⟨r, h1, h2, h3⟩ := ih (row.set d (-1)) (by simp [hl]) (fun d' hd' => h d' (by simp [hd']))
    refine ⟨r, ?_, h2, fun j hj => ?_⟩
    · rw [formatDropsRow, if_pos (h d (by simp)), h1]
    · rw [h3 j hj]
      by_cases hm : j ∈ ds
      · simp [hm]
      · by_cases hd : j = d
        · subst hd; simp [hm, List.getElem?_set_self (l := row) (i := j) (by omega)]
        · simp only [if_neg hm]
          rw [List.getElem?_set_ne (by omega), if_neg (by simp [hd, hm])]

theorem formatDropsRow_error (n : Nat) (ds : List Nat) (row : List Int) (d : Nat) (hd : d ∈ ds)
    (h : n ≤ d) : formatDropsRow n ds row = .error .indexError := by
  induction ds generalizing row with
  | nil => simp at hd
  | cons a ds ih =>
    rw [formatDropsRow]
    split
    · rcases List.mem_cons.1 hd with rfl | hd
      · omega
      · exact ih _ hd
    · rfl

/-- C41: the table built from the lists of dropped plies has one row per panel, of the length of the
guide, with -1 exactly at the dropped plies and the position of the ply elsewhere. -/
theorem C41_format (drops : List (List Nat)) (n : Nat) (h : ∀ ds ∈ drops, ∀ d ∈ ds, d < n) :
    ∃ t, formatPlyDrops drops n = .ok t ∧ t.length = drops.length ∧
      ∀ (i : Nat) ds, drops[i]? = some ds → ∃ row, t[i]? = some row ∧ row.length = n ∧
        ∀ j, j < n → row[j]? = some (if j ∈ ds then -1 else (j : Int)) := by
  have key : ∀ ds ∈ drops, ∃ r, formatDropsRow n ds ((List.range n).map (fun (i : Nat) => (i : Int))) = .ok r ∧
      r.length = n ∧ ∀ j, j < n → r[j]? = some (if j ∈ ds then -1 else (j : Int)) := by
    intro ds hds
    obtain ⟨r, h1, h2, h3⟩ := formatDropsRow_spec n ds ((List.range n).map (fun (i : Nat) => (i : Int)))
      (by simp) (h ds hds)
    refine ⟨r, h1, h2, fun j hj => ?_⟩
    rw [h3 j hj]
    by_cases hm : j ∈ ds
    · simp [hm]
    · simp [hm, hj]
  obtain ⟨t, ht⟩ := mapM_exists (fun ds => formatDropsRow n ds ((List.range n).map (fun (i : Nat) => (i : Int))))
    drops (fun ds hds => by obtain ⟨r, h1, _⟩ := key ds hds; exact ⟨r, h1⟩)
  have hf := mapM_inv _ _ _ ht
  refine ⟨t, ht, hf.length_eq.symm, fun i ds hi => ?_⟩
  have hi' : i < drops.length := (List.getElem?_eq_some_iff.1 hi).1
  have hit : i < t.length := by rw [← hf.length_eq]; exact hi'
  have e := (List.getElem?_eq_some_iff.1 hi).2
  have := hf.get hi' hit
  simp only [List.get_eq_getElem] at this
  rw [e] at this
  obtain ⟨r, h1, h2, h3⟩ := key ds (by rw [← e]; exact List.getElem_mem hi')
  rw [this] at h1
  cases h1
  exact ⟨t[i], List.getElem?_eq_getElem hit, h2, h3⟩

/-- C41: a dropped ply outside the group raises an `IndexError`. -/
theorem C41_format_out_of_range (drops : List (List Nat)) (n : Nat) (ds : List Nat) (d : Nat)
    (h1 : ds ∈ drops) (h2 : d ∈ ds) (h3 : n ≤ d) : ∃ e, formatPlyDrops drops n = .error e := by
  cases h : formatPlyDrops drops n with
  | error e => exact ⟨e, rfl⟩
  | ok t =>
    have hf := mapM_inv _ _ _ h
    obtain ⟨i, hi, e⟩ := List.getElem_of_mem h1
    have := hf.get hi (by rw [← hf.length_eq]; exact hi)
    simp only [List.get_eq_getElem] at this
    rw [e, formatDropsRow_error n ds _ d h2 h3] at this
    cases this

/-- C41: nested sets of dropped plies give nested rows. -/
theorem C41_format_nested (drops : List (List Nat)) (n : Nat) (h : ∀ ds ∈ drops, ∀ d ∈ ds, d < n)
    (t : Table) (ht : formatPlyDrops drops n = .ok t) (i k : Nat) (di dk : List Nat)
    (hi : drops[i]? = some di) (hk : drops[k]? = some dk) (hsub : di ⊆ dk) :
    ∃ ri rk, t[i]? = some ri ∧ t[k]? = some rk ∧ Spec.Nested ri rk := by
  obtain ⟨t', h1, _, h3⟩ := C41_format drops n h
  rw [ht] at h1
  cases h1
  obtain ⟨ri, a1, a2, a3⟩ := h3 i di hi
  obtain ⟨rk, b1, b2, b3⟩ := h3 k dk hk
  refine ⟨ri, rk, a1, b1, fun j hj => ?_⟩
  have hjn : j < n := by rw [← a2]; exact (List.getElem?_eq_some_iff.1 hj).1
  rw [a3 j hjn] at hj
  rw [b3 j hjn]
  by_cases hm : j ∈ di
  · rw [if_pos (hsub hm)]
  · rw [if_neg hm] at hj
    simp at hj

/-- the example in pdl_tools.py 335-343 -/
example : formatPlyDrops [[], [0, 1], [0, 1, 2]] 5 =
    .ok [[0, 1, 2, 3, 4], [-1, -1, 2, 3, 4], [-1, -1, -1, 3, 4]] := by decide +kernel

/-! ### format_ply_drops2 -/

theorem renumber_getElem (row : List Int) (k : Int) (j : Nat) :
    (renumber k row)[j]? = (row[j]?).map
      (fun x => if x = -1 then -1 else k + (Spec.plyCount row j : Int)) := by
  induction row generalizing k j with
  | nil => simp [renumber]
  | cons x xs ih =>
    rw [renumber]
    cases j with
    | zero =>
      by_cases hx : x = -1 <;> simp [hx, Spec.plyCount]
    | succ j =>
      by_cases hx : x = -1
      · simp only [hx, ne_eq, not_true_eq_false, if_false, List.getElem?_cons_succ, ih,
          plyCount_cons_succ, if_true, Nat.add_zero]
      · simp only [hx, ne_eq, not_false_eq_true, if_true, List.getElem?_cons_succ, ih,
          plyCount_cons_succ, if_false]
        cases xs[j]? with
        | none => rfl
        | some y =>
          simp only [Option.map_some, Option.some.injEq]
          by_cases hy : y = -1
          · simp [hy]
          · simp only [hy, if_false]; push_cast; ring

theorem length_renumber (row : List Int) (k : Int) : (renumber k row).length = row.length := by
  induction row generalizing k with
  | nil => rfl
  | cons x xs ih => rw [renumber]; split <;> simp [ih]

/-- C41: the second format keeps the size and the drops of every row and numbers its plies
`0, 1, 2, ...` -/
theorem C41_format2 (t : Table) (i : Nat) (row : List Int) (h : t[i]? = some row) :
    ∃ r, (formatPlyDrops2 t)[i]? = some r ∧ r.length = row.length ∧
      ∀ (j : Nat) (x : Int), row[j]? = some x →
        r[j]? = some (if x = -1 then -1 else (Spec.plyCount row j : Int)) := by
  refine ⟨renumber 0 row, by simp [formatPlyDrops2, h], length_renumber _ _, fun j x hj => ?_⟩
  rw [renumber_getElem, hj]
  simp

/-- C41: formatting twice is formatting once. -/
theorem C41_format2_idempotent (t : Table) :
    formatPlyDrops2 (formatPlyDrops2 t) = formatPlyDrops2 t := by
  have key : ∀ row : List Int, renumber 0 (renumber 0 row) = renumber 0 row := by
    intro row
    have hpc : ∀ j, Spec.plyCount (renumber 0 row) j = Spec.plyCount row j := by
      intro j
      induction j with
      | zero => simp [Spec.plyCount]
      | succ j ih =>
        cases h : row[j]? with
        | none =>
          have hj : row.length ≤ j := List.getElem?_eq_none_iff.1 h
          unfold Spec.plyCount at ih ⊢
          rw [List.take_of_length_le (by rw [length_renumber]; omega)] at ih ⊢
          rw [List.take_of_length_le (by omega)] at ih ⊢
          exact ih
        | some x =>
          have h' : (renumber 0 row)[j]? = some (if x = -1 then -1 else 0 + (Spec.plyCount row j : Int)) := by
            rw [renumber_getElem, h]; rfl
          rw [plyCount_succ _ _ _ h', plyCount_succ _ _ _ h, ih]
          by_cases hx : x = -1
          · simp [hx]
          · have : ¬ ((0 : Int) + (Spec.plyCount row j : Int) = -1) := by omega
            simp only [hx, if_false, this]
    apply List.ext_getElem?
    intro j
    rw [renumber_getElem, renumber_getElem, hpc]
    cases row[j]? with
    | none => rfl
    | some x =>
      simp only [Option.map_some, Option.some.injEq]
      by_cases hx : x = -1
      · simp [hx]
      · have : ¬ ((0 : Int) + (Spec.plyCount row j : Int) = -1) := by omega
        simp only [hx, if_false, this]
  simp only [formatPlyDrops2, List.map_map]
  apply List.map_congr_left
  intro row _
  exact key row

/-- the example in pdl_tools.py 345-352 -/
example : formatPlyDrops2 [[0, 1, 2, 3, 4], [-1, -1, 2, 3, 4], [-1, 1, -1, 3, -1]] =
    [[0, 1, 2, 3, 4], [-1, -1, 0, 1, 2], [-1, 0, -1, 1, -1]] := by decide +kernel

/-! ### global_pdl_from_local_pdl -/

theorem numberRow_getElem (row : List Int) (k : Int) (j : Nat) :
    (numberRow k row)[j]? = (row[j]?).map
      (fun x => if x = -1 then -1 else x + k + (Spec.plyCount row j : Int)) := by
  induction row generalizing k j with
  | nil => simp [numberRow]
  | cons x xs ih =>
    rw [numberRow]
    cases j with
    | zero => by_cases hx : x = -1 <;> simp [hx, Spec.plyCount]
    | succ j =>
      by_cases hx : x = -1
      · simp only [hx, ne_eq, not_true_eq_false, if_false, List.getElem?_cons_succ, ih,
          plyCount_cons_succ, if_true, Nat.add_zero]
      · simp only [hx, ne_eq, not_false_eq_true, if_true, List.getElem?_cons_succ, ih,
          plyCount_cons_succ, if_false]
        cases xs[j]? with
        | none => rfl
        | some y =>
          simp only [Option.map_some, Option.some.injEq]
          by_cases hy : y = -1
          · simp [hy]
          · simp only [hy, if_false]; push_cast; ring

theorem length_numberRow (row : List Int) (k : Int) : (numberRow k row).length = row.length := by
  induction row generalizing k with
  | nil => rfl
  | cons x xs ih => rw [numberRow]; split <;> simp [ih]

theorem plyCount_marks (row : List Int) (j : Nat) :
    Spec.plyCount (marks row) j = Spec.plyCount row j := by
  unfold Spec.plyCount marks
  rw [← List.map_take, List.countP_map]
  apply List.countP_congr
  intro x _
  simp only [Function.comp]
  by_cases hx : x = -1 <;> simp [hx]

theorem numberRow_marks (row rest : List Int) (j : Nat) (x : Int) (h : row[j]? = some x) :
    (numberRow 0 (marks row ++ rest))[j]? =
      some (if x = -1 then -1 else (Spec.plyCount row (j + 1) : Int)) := by
  have hj : j < row.length := (List.getElem?_eq_some_iff.1 h).1
  have hm : (marks row)[j]? = some (if x = -1 then -1 else 1) := by
    simp [marks, h]
  have hpc : Spec.plyCount (marks row ++ rest) j = Spec.plyCount row j := by
    rw [← plyCount_marks row]
    unfold Spec.plyCount
    rw [List.take_append_of_le_length (by simp [marks]; omega)]
  rw [numberRow_getElem, List.getElem?_append_left (by simp [marks]; omega), hm, hpc,
    plyCount_succ _ _ _ h]
  simp only [Option.map_some, Option.some.injEq]
  by_cases hx : x = -1
  · simp [hx]
  · simp only [hx, if_false]
    norm_num
    ring

theorem length_mirrorRow (r : List Int) : (mirrorRow r).length = r.length := by
  simp only [mirrorRow, List.length_append, List.length_take, List.length_reverse]
  omega

theorem mirrorRow_reverse (r : List Int) : (mirrorRow r).reverse = mirrorRow r := by
  unfold mirrorRow
  rcases Nat.even_or_odd r.length with ⟨m, hm⟩ | ⟨m, hm⟩
  · have e1 : (r.length + 1) / 2 = m := by omega
    have e2 : r.length / 2 = m := by omega
    rw [e1, e2]
    simp
  · have e1 : (r.length + 1) / 2 = m + 1 := by omega
    have e2 : r.length / 2 = m := by omega
    have e3 : r.take (m + 1) = r.take m ++ [r[m]] := by
      rw [List.take_add_one, List.getElem?_eq_getElem (by omega)]; rfl
    rw [e1, e2, e3]
    simp only [List.reverse_append, List.reverse_reverse, List.reverse_cons, List.reverse_nil,
      List.nil_append, List.append_assoc]

theorem symHalf_eq (ip : Nat) (gs : List (Option Table)) (h : List Int)
    (hs : symHalf ip gs = .ok h) : h = marks (Spec.groupRows ip gs) := by
  induction gs generalizing h with
  | nil => simp only [symHalf, Except.ok.injEq] at hs; subst hs; rfl
  | cons g gs ih =>
    cases g with
    | none =>
      rw [symHalf] at hs
      rw [ih h hs]
      rfl
    | some g =>
      simp only [symHalf, bind_ok, pure, Except.pure, Except.ok.injEq] at hs
      obtain ⟨row, h1, rest, h2, rfl⟩ := hs
      rw [ih rest h2]
      have : row = g.getD ip [] := by
        rw [pyGet_eq_ok] at h1
        rw [List.getD_eq_getElem?_getD, h1]; rfl
      simp [Spec.groupRows, Spec.groupRow, marks, this]

theorem symHalf_ok (ip : Nat) (gs : List (Option Table))
    (h : ∀ g, some g ∈ gs → ip < g.length) : ∃ r, symHalf ip gs = .ok r := by
  induction gs with
  | nil => exact ⟨_, rfl⟩
  | cons g gs ih =>
    obtain ⟨r, hr⟩ := ih (fun g' hg' => h g' (by simp [hg']))
    cases g with
    | none => exact ⟨r, hr⟩
    | some g =>
      refine ⟨marks (g[ip]'(h g (by simp))) ++ r, ?_⟩
      rw [symHalf, pyGet_ok (h g (by simp)), hr]
      rfl

/-- The row built for one panel of a symmetric laminate. -/
def symRow (mid : Bool) (half : List Int) : List Int :=
  mirrorRow (numberRow 0 (dropMiddle mid (marks half ++ (marks half).reverse)))

theorem length_dropMiddle (mid : Bool) (h : List Int) :
    (dropMiddle mid (h ++ h.reverse)).length = 2 * h.length - (if mid then 1 else 0) := by
  unfold dropMiddle
  cases mid with
  | false => simp; omega
  | true =>
    simp only [if_true]
    rw [List.length_eraseIdx]
    simp only [List.length_append, List.length_reverse]
    split <;> omega

theorem dropMiddle_prefix (mid : Bool) (h : List Int) :
    ∃ rest, dropMiddle mid (h ++ h.reverse) = h ++ rest := by
  unfold dropMiddle
  cases mid with
  | false => exact ⟨_, rfl⟩
  | true =>
    simp only [if_true]
    rw [List.eraseIdx_append_of_length_le (by simp; omega)]
    exact ⟨_, rfl⟩

theorem symRow_spec (mid : Bool) (half : List Int) :
    (symRow mid half).length = 2 * half.length - (if mid then 1 else 0) ∧
    (symRow mid half).reverse = symRow mid half ∧
    Spec.NumbersPlies half (symRow mid half) := by
  have hlen : (symRow mid half).length = 2 * half.length - (if mid then 1 else 0) := by
    unfold symRow
    rw [length_mirrorRow, length_numberRow, length_dropMiddle]
    simp [marks]
  refine ⟨hlen, mirrorRow_reverse _, ?_⟩
  intro j x hj
  have hj' : j < half.length := (List.getElem?_eq_some_iff.1 hj).1
  obtain ⟨rest, hr⟩ := dropMiddle_prefix mid (marks half)
  have hl2 := length_dropMiddle mid (marks half)
  have hml : (marks half).length = half.length := by simp [marks]
  unfold symRow mirrorRow
  rw [List.getElem?_append_left, List.getElem?_take_of_lt]
  · rw [hr, numberRow_marks _ _ _ _ hj]
  · rw [length_numberRow, hl2, hml]
    cases mid <;> simp <;> omega
  · rw [List.length_take, length_numberRow, hl2, hml]
    cases mid <;> simp <;> omega

theorem globalPdl_rows (nP nMax : Nat) (mid sym : Bool) (before : List (Option Table))
    (after : Option (List (Option Table))) (t : Table)
    (h : globalPdl nP nMax mid sym before after = .ok t) :
    (List.range nP).mapM (fun ip =>
      if sym then do
        let h ← symHalf ip before
        pure (mirrorRow (numberRow 0 (dropMiddle mid (h ++ h.reverse))))
      else do
        let p ← asymParts ip after 0 before
        pure (numberRow 0 (p.1 ++ p.2))) = .ok t ∧
    0 < nP ∧ ∃ w, (w = nMax ∨ w = nMax + 1) ∧ ∀ row ∈ t, row.length = w := by
  unfold globalPdl at h
  rw [bind_ok] at h
  obtain ⟨rows, h1, h2⟩ := h
  cases rows with
  | nil => cases h2
  | cons r rs =>
    simp only at h2
    by_cases hany : ((r :: rs).any (fun x => x.length != r.length)) = true
    · rw [if_pos hany] at h2; cases h2
    · rw [if_neg hany] at h2
      by_cases hw : r.length ≠ nMax ∧ r.length ≠ nMax + 1
      · rw [if_pos hw] at h2; cases h2
      · rw [if_neg hw] at h2
        cases h2
        refine ⟨h1, ?_, r.length, by omega, fun row hrow => ?_⟩
        · have := (mapM_inv _ _ _ h1).length_eq
          simp at this; omega
        · by_contra hne
          apply hany
          rw [List.any_eq_true]
          exact ⟨row, hrow, by simpa using hne⟩

theorem getElem?_of_forall2 {α β : Type} {R : α → β → Prop} {l : List α} {m : List β}
    (h : List.Forall₂ R l m) (i : Nat) (a : α) (ha : l[i]? = some a) : ∃ b, m[i]? = some b ∧ R a b := by
  have hi : i < l.length := (List.getElem?_eq_some_iff.1 ha).1
  have hi' : i < m.length := by rw [← h.length_eq]; exact hi
  have := h.get hi hi'
  simp only [List.get_eq_getElem] at this
  rw [(List.getElem?_eq_some_iff.1 ha).2] at this
  exact ⟨m[i], List.getElem?_eq_getElem hi', this⟩

/-- C41: for symmetric laminates, the layout of the laminate has one row per panel; each row is
symmetric, its first half is the sequence of the panel's group layouts with -1 exactly at the drops
and the plies numbered from 1, and its length is that of the thickest panel (one more at most). -/
theorem C41_symmetric (nP nMax : Nat) (mid : Bool) (before : List (Option Table)) (t : Table)
    (h : globalPdl nP nMax mid true before none = .ok t) :
    t.length = nP ∧ ∀ ip, ip < nP → ∃ row, t[ip]? = some row ∧
      (row.length = nMax ∨ row.length = nMax + 1) ∧
      row.length = 2 * (Spec.groupRows ip before).length - (if mid then 1 else 0) ∧
      row.reverse = row ∧ Spec.NumbersPlies (Spec.groupRows ip before) row := by
  obtain ⟨h1, _, w, hw, hrows⟩ := globalPdl_rows _ _ _ _ _ _ _ h
  have hf := mapM_inv _ _ _ h1
  have hlen := hf.length_eq
  simp only [List.length_range] at hlen
  refine ⟨hlen.symm, fun ip hip => ?_⟩
  obtain ⟨row, hr, hrow⟩ := getElem?_of_forall2 hf ip ip (by simp [hip])
  simp only [if_true, bind_ok, pure, Except.pure, Except.ok.injEq] at hrow
  obtain ⟨hh, e1, e2⟩ := hrow
  have e3 := symHalf_eq ip before hh e1
  rw [e3] at e2
  have e4 : symRow mid (Spec.groupRows ip before) = row := e2
  obtain ⟨s1, s2, s3⟩ := symRow_spec mid (Spec.groupRows ip before)
  rw [e4] at s1 s2 s3
  refine ⟨row, hr, ?_, s1, s2, s3⟩
  rw [hrows row (List.mem_of_getElem? hr)]
  exact hw

theorem dropped_iff_of_numbers {layout row : List Int} (h : Spec.NumbersPlies layout row) {j : Nat}
    (hj : j < layout.length) : row[j]? = some (-1) ↔ layout[j]? = some (-1) := by
  have e := h j layout[j] (List.getElem?_eq_getElem hj)
  rw [e, List.getElem?_eq_getElem hj]
  simp only [Option.some.injEq]
  constructor
  · intro h'
    by_contra hne
    rw [if_neg hne] at h'
    omega
  · intro h'; rw [if_pos h']

/-- C41: nested group layouts give nested layouts of the laminate (symmetric laminates). -/
theorem C41_symmetric_nested (nP nMax : Nat) (mid : Bool) (before : List (Option Table)) (t : Table)
    (h : globalPdl nP nMax mid true before none = .ok t) (i k : Nat) (hi : i < nP) (hk : k < nP)
    (hnest : Spec.Nested (Spec.groupRows i before) (Spec.groupRows k before)) :
    ∃ ri rk, t[i]? = some ri ∧ t[k]? = some rk ∧ Spec.Nested ri rk := by
  obtain ⟨_, hrows⟩ := C41_symmetric nP nMax mid before t h
  obtain ⟨ri, a1, a2, a3, a4, a5⟩ := hrows i hi
  obtain ⟨rk, b1, b2, b3, b4, b5⟩ := hrows k hk
  obtain ⟨_, _, w, _, hw⟩ := globalPdl_rows _ _ _ _ _ _ _ h
  have lw1 := hw ri (List.mem_of_getElem? a1)
  have lw2 := hw rk (List.mem_of_getElem? b1)
  refine ⟨ri, rk, a1, b1, fun j hj => ?_⟩
  have hjl : j < ri.length := (List.getElem?_eq_some_iff.1 hj).1
  have first : ∀ j, j < (Spec.groupRows i before).length → ri[j]? = some (-1) →
      rk[j]? = some (-1) := by
    intro j hj h1
    have h2 := (dropped_iff_of_numbers a5 hj).1 h1
    have h3 := hnest j h2
    exact (dropped_iff_of_numbers b5 (List.getElem?_eq_some_iff.1 h3).1).2 h3
  by_cases hlt : j < (Spec.groupRows i before).length
  · exact first j hlt hj
  · have hj2 : ri[ri.length - 1 - j]? = some (-1) := by
      rw [← a4, List.getElem?_reverse (by omega)] at hj
      exact hj
    have := first (ri.length - 1 - j) (by rw [a3]; cases mid <;> simp <;> simp at a3 <;> omega) hj2
    rw [← b4, List.getElem?_reverse (by omega)]
    rw [show rk.length - 1 - j = ri.length - 1 - j by omega]
    exact this

end Bella
