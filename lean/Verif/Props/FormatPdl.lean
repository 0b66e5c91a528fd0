import Verif.Proofs.Monad
import Verif.Spec.Layout
import Mathlib.Data.List.Sort
/-
Properties C17 (stacking sequence tables) and C18 (ply positions).
-/
namespace Bella

theorem sstRowToSs_eq (row : Stack) : sstRowToSs row = row.filter (fun x => x != -1) := by
  induction row with
  | nil => rfl
  | cons a t ih =>
    unfold sstRowToSs
    by_cases h : a = -1
    · simp [h, ih]
    · simp [h, ih]

theorem guideRow_length (g p : Stack) : (guideRow g p).length = p.length := by
  induction p generalizing g with
  | nil => cases g <;> rfl
  | cons d p ih => cases g <;> simp [guideRow, ih]

theorem guideRow_getElem? (g p : Stack) (h : g.length = p.length) (j : Nat) :
    (guideRow g p)[j]? = match g[j]?, p[j]? with
      | some a, some d => some (if d = -1 then -1 else a)
      | _, _ => none := by
  induction p generalizing g j with
  | nil => simp at h; subst h; simp [guideRow]
  | cons d p ih =>
    cases g with
    | nil => simp at h
    | cons a g =>
      cases j with
      | zero => simp [guideRow]
      | succ j =>
        simp only [guideRow, List.getElem?_cons_succ]
        exact ih g (by simpa using h) j

theorem filter_guideRow (g p : Stack) (h : g.length = p.length) (hg : (-1 : Int) ∉ g) :
    (guideRow g p).filter (fun x => x != -1) = Spec.kept g p := by
  induction p generalizing g with
  | nil => simp at h; subst h; simp [guideRow, Spec.kept]
  | cons d p ih =>
    cases g with
    | nil => simp at h
    | cons a g =>
      simp only [List.mem_cons, not_or] at hg
      have := ih g (by simpa using h) hg.2
      unfold Spec.kept at *
      have ha : a ≠ -1 := fun h => hg.1 h.symm
      by_cases hd : d = -1
      · simp [guideRow, hd, this]
      · simp [guideRow, hd, this, ha]

/-- C17: in the table built from a guide and a layout, the cell of a panel holds -1 where the layout
drops the ply, and the ply of the guide elsewhere. -/
theorem C17_guide_table (guide : Stack) (pdl : List Stack)
    (hw : ∀ row ∈ pdl, row.length = guide.length) :
    ∃ sst, convertSsGuideToSst guide pdl guide.length = .ok sst ∧ sst.length = pdl.length ∧
      ∀ (i : Nat) (row : Stack), pdl[i]? = some row → ∃ r : Stack, sst[i]? = some r ∧
        r.length = guide.length ∧
        ∀ (j : Nat) (a d : Int), guide[j]? = some a → row[j]? = some d →
          (d = -1 → r[j]? = some (-1)) ∧ (d ≠ -1 → r[j]? = some a) := by
  refine ⟨pdl.map (guideRow guide), by simp [convertSsGuideToSst], by simp, ?_⟩
  intro i row hr
  refine ⟨guideRow guide row, by simp [hr], ?_, ?_⟩
  · rw [guideRow_length]; exact hw row (List.mem_of_getElem? hr)
  · intro j a d ha hd
    rw [guideRow_getElem? _ _ (hw row (List.mem_of_getElem? hr)).symm, ha, hd]
    constructor
    · rintro rfl; simp
    · intro h; simp [h]

/-- C17: a list of laminates in which each panel's laminate consists of the plies of the thickest one
kept by the layout survives the conversion to a table and back. -/
theorem C17_ss_to_sst_to_ss (ss pdl : List Stack) (guide : Stack) (hlast : ss.getLast? = some guide)
    (hg : (-1 : Int) ∉ guide) (hw : ∀ row ∈ pdl, row.length = guide.length)
    (hss : ss = pdl.map (Spec.kept guide)) :
    ∃ sst, convertSsToSst ss pdl guide.length = .ok sst ∧ convertSstToSs sst = ss := by
  refine ⟨pdl.map (guideRow guide), by simp [convertSsToSst, hlast, convertSsGuideToSst], ?_⟩
  rw [hss]
  unfold convertSstToSs
  rw [List.map_map]
  apply List.map_congr_left
  intro row hr
  simp only [Function.comp_apply]
  rw [sstRowToSs_eq, filter_guideRow _ _ (hw row hr).symm hg]

/-- C17: conversely a table built on a guide, whose last panel has no drop, survives the conversion
to laminates and back. -/
theorem C17_sst_to_ss_to_sst (guide : Stack) (pdl sst : List Stack) (hg : (-1 : Int) ∉ guide)
    (hw : ∀ row ∈ pdl, row.length = guide.length)
    (hfull : ∃ row : Stack, pdl.getLast? = some row ∧ (-1 : Int) ∉ row)
    (h : convertSsGuideToSst guide pdl guide.length = .ok sst) :
    convertSsToSst (convertSstToSs sst) pdl guide.length = .ok sst := by
  simp only [convertSsGuideToSst, gt_iff_lt, lt_self_iff_false, if_false, Except.ok.injEq] at h
  subst h
  obtain ⟨row, hrow, hn⟩ := hfull
  have hlen := hw row (List.mem_of_getLast? hrow)
  have e : (convertSstToSs (pdl.map (guideRow guide))).getLast? = some guide := by
    unfold convertSstToSs
    rw [List.map_map, List.getLast?_map, hrow]
    simp only [Option.map_some, Function.comp_apply, Option.some.injEq]
    rw [sstRowToSs_eq, filter_guideRow _ _ hlen.symm hg]
    unfold Spec.kept
    rw [List.filter_eq_self.2]
    · rw [List.map_fst_zip (by omega)]
    · rintro ⟨a, d⟩ hx
      have hd := (List.of_mem_zip hx).2
      simp only [bne_iff_ne, ne_eq]
      rintro rfl
      exact hn hd
  unfold convertSsToSst
  rw [e]
  simp [convertSsGuideToSst]

/-- C17: the number of plies of each panel is the length of the layout minus its drops. -/
theorem C17_ply_counts (guide row : Stack) (hw : row.length = guide.length)
    (hg : (-1 : Int) ∉ guide) (sst : List Stack)
    (h : convertSsGuideToSst guide [row] guide.length = .ok sst) :
    ∃ s, convertSstToSs sst = [s] ∧ s.length + row.count (-1) = guide.length := by
  simp only [convertSsGuideToSst, gt_iff_lt, lt_self_iff_false, if_false, Except.ok.injEq] at h
  subst h
  refine ⟨_, rfl, ?_⟩
  rw [sstRowToSs_eq, filter_guideRow _ _ hw.symm hg, ← hw]
  unfold Spec.kept
  clear hg
  induction row generalizing guide with
  | nil => simp
  | cons d row ih =>
    cases guide with
    | nil => simp at hw
    | cons a guide =>
      have := ih guide (by simpa using hw)
      by_cases hd : d = -1
      · simp only [List.zip_cons_cons, List.length_cons, List.count_cons, hd,
          List.filter_cons] at *
        simp at *
        omega
      · simp only [List.zip_cons_cons, List.length_cons, List.count_cons,
          List.filter_cons] at *
        simp [hd] at *
        omega

theorem refColumns_ok (ssRef : Stack) (indRef : Nat) (cols : List Stack) (k : Nat)
    (hk : k + cols.countP (fun c => c.getD indRef (-1) != -1) = ssRef.length) :
    ∃ res, refColumns ssRef indRef cols k = .ok res ∧ res.length = cols.length ∧
      ∀ (j : Nat) (c : Stack), cols[j]? = some c →
        (c.getD indRef (-1) = -1 → res[j]? = some c) ∧
        (c.getD indRef (-1) ≠ -1 → ∃ a, ssRef[k + (cols.take j).countP
          (fun c => c.getD indRef (-1) != -1)]? = some a ∧
          res[j]? = some (c.map (fun x => if x ≠ -1 then a else x))) := by
  induction cols generalizing k with
  | nil => exact ⟨[], rfl, rfl, by simp⟩
  | cons c cols ih =>
    unfold refColumns
    by_cases hc : c.getD indRef (-1) = -1
    · rw [if_neg (by simpa using hc)]
      have hcb : ¬ ((c.getD indRef (-1) != -1) = true) := by rw [hc]; simp
      obtain ⟨res, hr, hl, hj⟩ := ih k (by rw [List.countP_cons, if_neg hcb] at hk; omega)
      refine ⟨c :: res, by rw [hr]; rfl, by simp [hl], ?_⟩
      intro j c' hc'
      cases j with
      | zero =>
        simp only [List.getElem?_cons_zero, Option.some.injEq] at hc'
        subst hc'
        exact ⟨fun _ => rfl, fun h => absurd hc h⟩
      | succ j =>
        simp only [List.getElem?_cons_succ] at hc' ⊢
        rw [List.take_succ_cons, List.countP_cons, if_neg hcb]
        exact hj j c' hc'
    · rw [if_pos (by simpa using hc)]
      have hk' : k + 1 + cols.countP (fun c => c.getD indRef (-1) != -1) = ssRef.length := by
        rw [List.countP_cons, if_pos (by simpa using hc)] at hk
        omega
      obtain ⟨res, hr, hl, hj⟩ := ih (k + 1) hk'
      have hlt : k < ssRef.length := by omega
      refine ⟨(c.map (fun x => if x ≠ -1 then ssRef[k] else x)) :: res, ?_, by simp [hl], ?_⟩
      · rw [pyGet_ok hlt, hr]; rfl
      · intro j c' hc'
        cases j with
        | zero =>
          simp only [List.getElem?_cons_zero, Option.some.injEq] at hc'
          subst hc'
          refine ⟨fun h => absurd h hc, fun _ => ⟨ssRef[k], by simp [hlt], rfl⟩⟩
        | succ j =>
          simp only [List.getElem?_cons_succ] at hc' ⊢
          obtain ⟨h1, h2⟩ := hj j c' hc'
          refine ⟨h1, fun h => ?_⟩
          obtain ⟨a, ha, hres⟩ := h2 h
          refine ⟨a, ?_, hres⟩
          rw [List.take_succ_cons, List.countP_cons, if_pos (by simpa using hc)]
          rw [← Nat.add_assoc, Nat.add_right_comm]
          exact ha

theorem filter_eq_of_count (row out ssRef : Stack) (k : Nat) (hlen : out.length = row.length)
    (href : (-1 : Int) ∉ ssRef) (hk : k + row.countP (fun x => x != -1) = ssRef.length)
    (h : ∀ (j : Nat) (d : Int), row[j]? = some d → (d = -1 → out[j]? = some (-1)) ∧
      (d ≠ -1 → out[j]? = ssRef[k + (row.take j).countP (fun x => x != -1)]?)) :
    out.filter (fun x => x != -1) = ssRef.drop k := by
  induction row generalizing out k with
  | nil =>
    simp at hlen hk
    subst hlen
    simp [hk]
  | cons d row ih =>
    cases out with
    | nil => simp at hlen
    | cons o out =>
      obtain ⟨h1, h2⟩ := h 0 d rfl
      simp only [List.getElem?_cons_zero, Option.some.injEq, List.take_zero, List.countP_nil,
        Nat.add_zero] at h1 h2
      by_cases hd : d = -1
      · rw [List.filter_cons, if_neg (by simpa using h1 hd)]
        apply ih out k (by simpa using hlen) (by simpa [List.countP_cons, hd] using hk)
        intro j e he
        have := h (j + 1) e (by simpa using he)
        simpa [List.take_succ_cons, List.countP_cons, hd] using this
      · have hk' : k + 1 + row.countP (fun x => x != -1) = ssRef.length := by
          rw [List.countP_cons, if_pos (by simpa using hd)] at hk; omega
        have hlt : k < ssRef.length := by omega
        have ho := h2 hd
        rw [List.getElem?_eq_getElem hlt, Option.some.injEq] at ho
        have hne : o ≠ -1 := by rintro rfl; exact href (ho ▸ List.getElem_mem hlt)
        rw [List.filter_cons, if_pos (by simpa using hne), List.drop_eq_getElem_cons hlt, ← ho]
        congr 1
        apply ih out (k + 1) (by simpa using hlen) hk'
        intro j e he
        obtain ⟨g1, g2⟩ := h (j + 1) e (by simpa using he)
        refine ⟨by simpa using g1, fun hne' => ?_⟩
        have := g2 hne'
        rw [List.take_succ_cons, List.countP_cons, if_pos (by simpa using hd)] at this
        rw [← Nat.add_assoc, Nat.add_right_comm] at this
        simpa using this

/-- C17: `convert_ss_ref_to_reduced_sst` puts the new laminate in the reference panel; in every
panel the plies shared with the reference panel follow it, the plies the reference panel does not
have are those of the previous table, and the drops are unchanged. -/
theorem C17_new_reference (ssRef : Stack) (indRef : Nat) (pdl ssBefore : List Stack) (guide : Stack)
    (hlast : ssBefore.getLast? = some guide) (hg : (-1 : Int) ∉ guide) (href : (-1 : Int) ∉ ssRef)
    (hw : ∀ row ∈ pdl, row.length = guide.length) (rowRef : Stack) (hr : pdl[indRef]? = some rowRef)
    (hcount : ssRef.length = rowRef.countP (fun x => x != -1)) :
    ∃ cols, convertSsRefToReducedSst ssRef indRef pdl ssBefore guide.length = .ok cols ∧
      cols.length = guide.length ∧ (∀ c ∈ cols, c.length = pdl.length) ∧
      convertSstToSs [cols.map (fun c => c.getD indRef (-1))] = [ssRef] ∧
      ∀ (i j : Nat) (row c : Stack) (d dRef a : Int), pdl[i]? = some row → cols[j]? = some c →
        row[j]? = some d → rowRef[j]? = some dRef → guide[j]? = some a →
        (d = -1 → c[i]? = some (-1)) ∧
        (d ≠ -1 → dRef ≠ -1 → c[i]? = c[indRef]?) ∧
        (d ≠ -1 → dRef = -1 → c[i]? = some a) := by
  have hsst : convertSsToSst ssBefore pdl guide.length = .ok (pdl.map (guideRow guide)) := by
    simp [convertSsToSst, hlast, convertSsGuideToSst]
  generalize hS : pdl.map (guideRow guide) = S at hsst
  have hrlen := hw rowRef (List.mem_of_getElem? hr)
  -- cells of the table
  have cell : ∀ (i j : Nat) (row : Stack) (d a : Int), pdl[i]? = some row → row[j]? = some d →
      guide[j]? = some a → (column S j)[i]? = some (if d = -1 then -1 else a) := by
    intro i j row d a hi hd ha
    have := guideRow_getElem? guide row (hw row (List.mem_of_getElem? hi)).symm j
    rw [ha, hd] at this
    rw [← hS]
    simp [column, hi, List.getD_eq_getElem?_getD, this]
  have cellRef : ∀ (j : Nat), j < guide.length → ∀ dRef, rowRef[j]? = some dRef →
      ((column S j).getD indRef (-1) = -1 ↔ dRef = -1) := by
    intro j hj dRef hd
    have := cell indRef j rowRef dRef guide[j] hr hd (List.getElem?_eq_getElem hj)
    rw [List.getD_eq_getElem?_getD, this]
    have hgj : guide[j] ≠ -1 := fun h => hg (h ▸ List.getElem_mem hj)
    by_cases h : dRef = -1 <;> simp [h, hgj]
  have hcolcount : ∀ n, n ≤ guide.length →
      (((List.range guide.length).map (column S)).take n).countP
        (fun c => c.getD indRef (-1) != -1) = (rowRef.take n).countP (fun x => x != -1) := by
    intro n hn
    have e1 : ((List.range guide.length).map (column S)).take n = (List.range n).map (column S) := by
      rw [← List.map_take, List.take_range, Nat.min_eq_left hn]
    rw [e1]
    induction n with
    | zero => simp
    | succ n ih =>
      have hn' : n < rowRef.length := by omega
      rw [List.range_succ, List.map_append, List.countP_append, ih (by omega) (by
        rw [← List.map_take, List.take_range, Nat.min_eq_left (by omega)]),
        List.take_succ_eq_append_getElem hn', List.countP_append]
      congr 1
      have := cellRef n (by omega) rowRef[n] (List.getElem?_eq_getElem hn')
      simp only [List.map_cons, List.map_nil, List.countP_cons, List.countP_nil]
      by_cases h : rowRef[n] = -1
      · rw [if_neg (by simpa using this.2 h), if_neg (by simpa using h)]
      · have h2 : ¬ (column S n).getD indRef (-1) = -1 := fun hh => h (this.1 hh)
        rw [if_pos (by simpa using h2), if_pos (by simpa using h)]
  obtain ⟨cols, hcols, hl, hj⟩ := refColumns_ok ssRef indRef
    ((List.range guide.length).map (column S)) 0 (by
      have := hcolcount guide.length (le_refl _)
      rw [List.take_of_length_le (by simp), List.take_of_length_le (by omega)] at this
      rw [this, hcount]; omega)
  simp only [List.length_map, List.length_range] at hl
  have hjc : ∀ j, j < guide.length → ((List.range guide.length).map (column S))[j]? = some (column S j) := by
    intro j hj; simp [hj]
  refine ⟨cols, ?_, hl, ?_, ?_, ?_⟩
  · unfold convertSsRefToReducedSst
    rw [hsst]
    exact hcols
  · intro c hc
    obtain ⟨j, hj1, rfl⟩ := List.mem_iff_getElem.1 hc
    obtain ⟨h1, h2⟩ := hj j _ (hjc j (by omega))
    have e : cols[j]? = some cols[j] := List.getElem?_eq_getElem hj1
    by_cases h : (column S j).getD indRef (-1) = -1
    · rw [h1 h, Option.some.injEq] at e
      rw [← e, ← hS]; simp [column]
    · obtain ⟨a, _, h3⟩ := h2 h
      rw [h3, Option.some.injEq] at e
      rw [← e, ← hS]; simp [column]
  · unfold convertSstToSs
    simp only [List.map_cons, List.map_nil, List.cons.injEq, and_true]
    rw [sstRowToSs_eq]
    have := filter_eq_of_count rowRef (cols.map (fun c => c.getD indRef (-1))) ssRef 0
      (by simp; omega) href (by omega) ?_
    · simpa using this
    · intro j d hd
      have hjl : j < guide.length := by
        have := (List.getElem?_eq_some_iff.1 hd).1; omega
      obtain ⟨h1, h2⟩ := hj j _ (hjc j hjl)
      have hcr := cellRef j hjl d hd
      refine ⟨fun h => ?_, fun h => ?_⟩
      · rw [List.getElem?_map, h1 (hcr.2 h)]
        simp only [Option.map_some]
        rw [hcr.2 h]
      · have hne : (column S j).getD indRef (-1) ≠ -1 := fun hh => h (hcr.1 hh)
        obtain ⟨a, ha, h3⟩ := h2 hne
        rw [hcolcount j (by omega)] at ha
        rw [ha, List.getElem?_map, h3]
        have hx := cell indRef j rowRef d guide[j] hr hd (List.getElem?_eq_getElem hjl)
        have hgj : guide[j] ≠ -1 := fun h => hg (h ▸ List.getElem_mem hjl)
        simp [List.getD_eq_getElem?_getD, hx, h, hgj]
  · intro i j row c d dRef a hi hc hd hdr ha
    have hjl : j < guide.length := (List.getElem?_eq_some_iff.1 ha).1
    have hane : a ≠ -1 := by rintro rfl; exact hg (List.mem_of_getElem? ha)
    obtain ⟨h1, h2⟩ := hj j _ (hjc j hjl)
    have hcr := cellRef j hjl dRef hdr
    have hx := cell i j row d a hi hd ha
    have hxr := cell indRef j rowRef dRef a hr hdr ha
    by_cases h : dRef = -1
    · rw [h1 (hcr.2 h), Option.some.injEq] at hc
      rw [← hc]
      refine ⟨fun hd' => by rw [hx]; simp [hd'], fun _ h' => absurd h h', fun hd' _ => ?_⟩
      rw [hx]; simp [hd']
    · have hne : (column S j).getD indRef (-1) ≠ -1 := fun hh => h (hcr.1 hh)
      obtain ⟨b, hb, h3⟩ := h2 hne
      rw [h3, Option.some.injEq] at hc
      rw [← hc]
      refine ⟨fun hd' => ?_, fun hd' _ => ?_, fun _ h' => absurd h' h⟩
      · rw [List.getElem?_map, hx]; simp [hd']
      · rw [List.getElem?_map, List.getElem?_map, hx, hxr]; simp [hd', h, hane]

/-- Non-vacuity of C17: a guide with two thinner panels. -/
example : convertSsToSst [[45, 90, 45], [45, 0, 90, 45]] [[0, -1, 2, 3], [0, 1, 2, 3]] 4
    = .ok [[45, -1, 90, 45], [45, 0, 90, 45]] := by decide +kernel

example : convertSsRefToReducedSst [0, 90, 0] 0 [[0, -1, 2, 3], [0, 1, 2, 3]]
    [[45, 90, 45], [45, 60, 90, 45]] 4 = .ok [[0, 0], [-1, 60], [90, 90], [0, 0]] := by
  decide +kernel

end Bella
