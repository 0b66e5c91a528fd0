import Verif.Props.FormatPdl
/-
Property C18: ply positions in laminates and in the stacking sequence table.
-/
namespace Bella

theorem plyCount_cons_succ (d : Int) (row : Stack) (o : Nat) :
    Spec.plyCount (d :: row) (o + 1) = Spec.plyCount row o + if d = -1 then 0 else 1 := by
  unfold Spec.plyCount
  rw [List.take_succ_cons, List.countP_cons]
  by_cases h : d = -1 <;> simp [h]

theorem plyCount_succ (row : Stack) (p : Nat) (d : Int) (h : row[p]? = some d) :
    Spec.plyCount row (p + 1) = Spec.plyCount row p + if d = -1 then 0 else 1 := by
  obtain ⟨hp, rfl⟩ := List.getElem?_eq_some_iff.1 h
  unfold Spec.plyCount
  rw [List.take_succ_eq_append_getElem hp, List.countP_append]
  by_cases h : row[p] = -1 <;> simp [h]

theorem plyCount_mono (row : Stack) {p q : Nat} (h : p ≤ q) :
    Spec.plyCount row p ≤ Spec.plyCount row q := by
  unfold Spec.plyCount
  exact ((List.take_prefix_take_left h).sublist).countP_le

/-- A table position is determined by the ply it holds. -/
theorem holdsPly_unique {row : Stack} {p p' q : Nat} (h : Spec.HoldsPly row p q)
    (h' : Spec.HoldsPly row p' q) : p = p' := by
  have aux : ∀ a b, Spec.HoldsPly row a q → Spec.HoldsPly row b q → ¬ a < b := by
    intro a b ha hb hlt
    obtain ⟨a1, a2, a3, a4⟩ := ha
    obtain ⟨b1, b2, b3, b4⟩ := hb
    have e : row[b - 1]? = some row[b - 1] := List.getElem?_eq_getElem (by omega)
    have hs := plyCount_succ row (b - 1) _ e
    rw [Nat.sub_add_cancel b1] at hs
    have hne : row[b - 1] ≠ -1 := by intro h; rw [e, h] at b3; exact b3 rfl
    rw [if_neg hne] at hs
    have := plyCount_mono row (show a ≤ b - 1 by omega)
    omega
  have h1 := aux p p' h h'
  have h2 := aux p' p h' h
  omega

theorem posRefLoop_spec (pdl : Stack) : ∀ (ind counter : Nat) (pos : List Nat),
    pos.Pairwise (· < ·) → (∀ q ∈ pos, counter < q ∧ q ≤ counter + Spec.plyCount pdl pdl.length) →
    (posRefLoop pdl ind counter pos).length = pos.length ∧
    ∀ (m q : Nat), pos[m]? = some q → ∃ o, (posRefLoop pdl ind counter pos)[m]? = some (ind + o) ∧
      Spec.HoldsPly pdl o (q - counter) := by
  induction pdl with
  | nil =>
    intro ind counter pos _ hq
    cases pos with
    | nil => simp [posRefLoop]
    | cons q pos =>
      have := hq q (by simp)
      simp [Spec.plyCount] at this
      omega
  | cons d pdl ih =>
    intro ind counter pos hs hq
    cases pos with
    | nil => simp [posRefLoop]
    | cons q pos =>
      have hq0 := hq q (by simp)
      rw [List.pairwise_cons] at hs
      have hcount : ∀ o, Spec.plyCount (d :: pdl) (o + 1)
          = Spec.plyCount pdl o + if d = -1 then 0 else 1 := plyCount_cons_succ d pdl
      have hlen := hcount pdl.length
      unfold posRefLoop
      -- lifting of positions in the tail
      have lift : ∀ (o x : Nat), Spec.HoldsPly pdl o x → Spec.HoldsPly (d :: pdl) (o + 1) (x + if d = -1 then 0 else 1) := by
        rintro o x ⟨h1, h2, h3, h4⟩
        refine ⟨by omega, by simpa using h2, ?_, by rw [hcount, h4]⟩
        obtain ⟨o', rfl⟩ : ∃ o', o = o' + 1 := ⟨o - 1, by omega⟩
        simpa using h3
      by_cases hd : d = -1
      · rw [if_neg (by simpa using hd)]
        simp only [hd, if_true, Nat.add_zero] at hlen lift
        obtain ⟨i1, i2⟩ := ih (ind + 1) counter (q :: pos) (List.pairwise_cons.2 hs) (by
          intro x hx
          have := hq x hx
          simp only [List.length_cons, hd] at this
          rw [hlen] at this
          exact this)
        refine ⟨i1, ?_⟩
        intro m x hx
        obtain ⟨o, ho, hh⟩ := i2 m x hx
        refine ⟨o + 1, by rw [ho]; congr 1; omega, ?_⟩
        rw [hd]
        exact lift _ _ hh
      · rw [if_pos (by simpa using hd)]
        simp only [hd, if_false] at hlen lift
        by_cases hc : counter + 1 = q
        · rw [if_pos hc]
          obtain ⟨i1, i2⟩ := ih (ind + 1) (counter + 1) pos hs.2 (by
            intro x hx
            have := hq x (by simp [hx])
            have h2 := hs.1 x hx
            simp only [List.length_cons] at this
            omega)
          refine ⟨by simp [i1], ?_⟩
          intro m x hx
          cases m with
          | zero =>
            simp only [List.getElem?_cons_zero, Option.some.injEq] at hx
            subst hx
            refine ⟨1, rfl, by omega, by simp, by simpa using hd, ?_⟩
            rw [hcount]
            simp [Spec.plyCount, hd]
            omega
          | succ m =>
            simp only [List.getElem?_cons_succ] at hx ⊢
            obtain ⟨o, ho, hh⟩ := i2 m x hx
            have hx1 := hs.1 x (List.mem_of_getElem? hx)
            refine ⟨o + 1, by rw [ho]; congr 1; omega, ?_⟩
            have := lift _ _ hh
            rw [show x - counter = x - (counter + 1) + 1 by omega]
            exact this
        · rw [if_neg hc]
          obtain ⟨i1, i2⟩ := ih (ind + 1) (counter + 1) (q :: pos) (List.pairwise_cons.2 hs) (by
            intro x hx
            have := hq x hx
            have h2 : q ≤ x := by
              rcases List.mem_cons.1 hx with rfl | h
              · exact le_refl _
              · exact (hs.1 x h).le
            simp only [List.length_cons] at this
            omega)
          refine ⟨i1, ?_⟩
          intro m x hx
          obtain ⟨o, ho, hh⟩ := i2 m x hx
          have hx1 : q ≤ x := by
            rcases List.mem_cons.1 (List.mem_of_getElem? hx) with rfl | h
            · exact le_refl _
            · exact (hs.1 x h).le
          refine ⟨o + 1, by rw [ho]; congr 1; omega, ?_⟩
          have := lift _ _ hh
          rw [show x - counter = x - (counter + 1) + 1 by omega]
          exact this

theorem argsort_perm (l : List Nat) : (argsortNat l).Perm (List.range l.length) :=
  List.perm_insertionSort _ _

theorem argsort_sorted (l : List Nat) (h : l.Nodup) :
    ((argsortNat l).map (fun i => l.getD i 0)).Pairwise (· < ·) := by
  have hp := argsort_perm l
  have h1 : (argsortNat l).Pairwise (fun i j => l.getD i 0 ≤ l.getD j 0) := by
    have : Std.Total (fun i j => l.getD i 0 ≤ l.getD j 0) := ⟨fun a b => le_total _ _⟩
    have : IsTrans Nat (fun i j => l.getD i 0 ≤ l.getD j 0) := ⟨fun a b c => le_trans⟩
    exact List.pairwise_insertionSort _ _
  have h2 : (argsortNat l).Nodup := hp.nodup_iff.2 List.nodup_range
  rw [List.pairwise_map]
  have h3 := h1.and h2
  have hm : ∀ i ∈ argsortNat l, i < l.length := fun i hi => List.mem_range.1 (hp.mem_iff.1 hi)
  refine List.Pairwise.imp_of_mem ?_ h3
  rintro a b ha hb ⟨hle, hne⟩
  refine lt_of_le_of_ne hle ?_
  intro he
  apply hne
  have la := hm a ha
  have lb := hm b hb
  simp only [List.getD_eq_getElem?_getD, la, lb, List.getElem?_eq_getElem, Option.getD_some] at he
  exact (List.Nodup.getElem_inj_iff h).1 he

/-- C18: `pos_in_ss_ref_to_pos_in_sst` gives, for each requested ply of the reference laminate (in
the order requested), the position of the table holding that ply. -/
theorem C18_ref_to_table (posRef : List Nat) (pdlRef : Stack) (hn : posRef.Nodup)
    (hq : ∀ q ∈ posRef, 1 ≤ q ∧ q ≤ Spec.plyCount pdlRef pdlRef.length) :
    ∃ out, posInSsRefToPosInSst posRef pdlRef = .ok out ∧ out.length = posRef.length ∧
      ∀ (m q : Nat), posRef[m]? = some q → ∃ p, out[m]? = some p ∧ Spec.HoldsPly pdlRef p q := by
  unfold posInSsRefToPosInSst
  split
  · rename_i h0
    refine ⟨[], rfl, by simp [h0], ?_⟩
    have : posRef = [] := List.eq_nil_of_length_eq_zero h0
    subst this
    simp
  · simp only
    have hp := argsort_perm posRef
    have hm : ∀ i ∈ argsortNat posRef, i < posRef.length :=
      fun i hi => List.mem_range.1 (hp.mem_iff.1 hi)
    obtain ⟨s1, s2⟩ := posRefLoop_spec pdlRef 0 0 _ (argsort_sorted posRef hn) (by
      intro q hq'
      obtain ⟨i, hi, rfl⟩ := List.mem_map.1 hq'
      have hl := hm i hi
      have hmem : posRef.getD i 0 ∈ posRef := by
        simp [List.getD_eq_getElem?_getD, hl]
      have := hq _ hmem
      omega)
    generalize hP : posRefLoop pdlRef 0 0 ((argsortNat posRef).map (fun i => posRef.getD i 0)) = P at *
    have hlen : P.length = posRef.length := by rw [s1]; simp [hp.length_eq]
    have hidx : ∀ i, i < posRef.length → (argsortNat posRef).idxOf i < P.length := by
      intro i hi
      have : i ∈ argsortNat posRef := hp.mem_iff.2 (List.mem_range.2 hi)
      have := List.idxOf_lt_length_of_mem this
      rw [hp.length_eq] at this
      simp at this
      omega
    obtain ⟨out, ho, hol, hoi⟩ := mapM_range (fun ind => pyGet P ((argsortNat posRef).idxOf ind))
      P.length (fun i hi => ⟨_, pyGet_ok (hidx i (by omega))⟩)
    refine ⟨out, ho, by omega, ?_⟩
    intro m q hmq
    have hml : m < posRef.length := (List.getElem?_eq_some_iff.1 hmq).1
    obtain ⟨y, hy, hf⟩ := hoi m (by omega)
    rw [pyGet_eq_ok] at hf
    have hmem : m ∈ argsortNat posRef := hp.mem_iff.2 (List.mem_range.2 hml)
    have hil := List.idxOf_lt_length_of_mem hmem
    have hg : ((argsortNat posRef).map (fun i => posRef.getD i 0))[(argsortNat posRef).idxOf m]?
        = some q := by
      rw [List.getElem?_map, List.getElem?_eq_getElem hil]
      simp [List.getD_eq_getElem?_getD, hmq]
    obtain ⟨o, ho1, ho2⟩ := s2 _ _ hg
    rw [hf, Option.some.injEq] at ho1
    refine ⟨y, hy, ?_⟩
    rw [ho1]
    simpa using ho2

theorem posPanelLoop_spec (pdl : Stack) : ∀ (m ind : Nat) (pos : List Nat),
    pos.Pairwise (· < ·) → (∀ q ∈ pos, ind < q) → (0 < m → pos.getLast? = some (ind + m)) →
    (m = 0 → pos = []) → ind + m ≤ pdl.length →
    posPanelLoop pdl m ind (Spec.plyCount pdl ind) pos
      = .ok ((pos.filter (fun p => pdl[p - 1]? != some (-1))).map (Spec.plyCount pdl)) := by
  intro m
  induction m with
  | zero =>
    intro ind pos _ _ _ h0 _
    rw [h0 rfl]
    simp [posPanelLoop]
  | succ m ih =>
    intro ind pos hs hq hlast _ hle
    have hl := hlast (by omega)
    cases pos with
    | nil => simp at hl
    | cons q pos =>
      unfold posPanelLoop
      have hind : pdl[ind]? = some pdl[ind] := List.getElem?_eq_getElem (by omega)
      rw [pyGet_ok (show ind < pdl.length by omega)]
      rw [List.pairwise_cons] at hs
      have hsucc := plyCount_succ pdl ind _ hind
      show (if q = ind + 1 then _ else _) = _
      have hqq := hq q (by simp)
      by_cases hc : q = ind + 1
      · rw [if_pos hc]
        have hpos : ∀ x ∈ pos, ind + 1 < x := fun x hx => by
          have := hs.1 x hx; omega
        have hlast' : 0 < m → pos.getLast? = some (ind + 1 + m) := by
          intro hm
          cases pos with
          | nil => simp at hl; omega
          | cons a t => rw [List.getLast?_cons_cons] at hl; rw [hl]; congr 1; omega
        have hnil : m = 0 → pos = [] := by
          intro hm
          cases pos with
          | nil => rfl
          | cons a t =>
            rw [List.getLast?_cons_cons] at hl
            have := hpos _ (List.mem_of_getLast? hl)
            omega
        have := ih (ind + 1) pos hs.2 hpos hlast' hnil (by omega)
        have eq1 : q - 1 = ind := by omega
        by_cases hd : pdl[ind] = -1
        · rw [if_neg (by simpa using hd)]
          have hsucc' : Spec.plyCount pdl ind = Spec.plyCount pdl (ind + 1) := by
            rw [hsucc, if_pos hd]; rfl
          rw [hsucc', this]
          rw [List.filter_cons, eq1, hind, hd]
          simp
        · rw [if_pos (by simpa using hd)]
          rw [if_neg hd] at hsucc
          rw [← hsucc, this]
          rw [List.filter_cons, eq1, hind, if_pos (by simpa using hd), List.map_cons, hc]
          rfl
      · rw [if_neg hc]
        have hm : 0 < m := by
          have hmem := List.mem_of_getLast? hl
          have hql : q ≤ ind + (m + 1) := by
            rcases List.mem_cons.1 hmem with h | h
            · omega
            · exact (hs.1 _ h).le
          omega
        have := ih (ind + 1) (q :: pos) (List.pairwise_cons.2 hs) (by
            intro x hx
            have : q ≤ x := by
              rcases List.mem_cons.1 hx with rfl | h
              · exact le_refl _
              · exact (hs.1 x h).le
            omega) (fun _ => by rw [hl]; congr 1; omega) (fun h => by omega) (by omega)
        by_cases hd : pdl[ind] = -1
        · rw [if_neg (by simpa using hd)]
          have hsucc' : Spec.plyCount pdl ind = Spec.plyCount pdl (ind + 1) := by
            rw [hsucc, if_pos hd]; rfl
          rw [hsucc']; exact this
        · rw [if_pos (by simpa using hd)]
          rw [if_neg hd] at hsucc
          rw [← hsucc]; exact this

/-- C18: `pos_in_sst_to_pos_in_panel` skips the dropped plies and gives the others their number in
the laminate of the panel. -/
theorem C18_table_to_panel (posSst : List Nat) (pdl : Stack) (hs : posSst.Pairwise (· < ·))
    (hq : ∀ p ∈ posSst, 1 ≤ p ∧ p ≤ pdl.length) :
    posInSstToPosInPanel posSst pdl
      = .ok ((posSst.filter (fun p => pdl[p - 1]? != some (-1))).map (Spec.plyCount pdl)) := by
  unfold posInSstToPosInPanel
  cases hl : posSst.getLast? with
  | none =>
    rw [List.getLast?_eq_none_iff] at hl
    subst hl
    rfl
  | some last =>
    have hmem := hq _ (List.mem_of_getLast? hl)
    have := posPanelLoop_spec pdl last 0 posSst hs (fun q h => by have := hq q h; omega)
      (fun _ => by simpa using hl) (fun h => by omega) (by omega)
    simpa [Spec.plyCount] using this

/-- C18: `pos_in_sst_to_pos_in_panel_2` gives every position the number of its ply in the laminate of
the panel, or 10^10 if the ply is dropped there; on ordered positions it agrees with
`pos_in_sst_to_pos_in_panel`. -/
theorem C18_table_to_panel_2 (posSst : List Nat) (pdl : Stack)
    (hq : ∀ p ∈ posSst, 1 ≤ p ∧ p ≤ pdl.length) :
    ∃ out, posInSstToPosInPanel2 posSst pdl = .ok out ∧ out.length = posSst.length ∧
      (∀ (m p : Nat), posSst[m]? = some p →
        (pdl[p - 1]? = some (-1) → out[m]? = some (10 ^ 10)) ∧
        (∀ q, Spec.HoldsPly pdl p q → out[m]? = some q)) ∧
      (posSst.Pairwise (· < ·) → pdl.length < 10 ^ 10 →
        posInSstToPosInPanel posSst pdl = .ok (out.filter (fun q => q != 10 ^ 10))) := by
  let g : Nat → Nat := fun p => if pdl[p - 1]? = some (-1) then 10 ^ 10 else Spec.plyCount pdl p
  have hmap : posInSstToPosInPanel2 posSst pdl = .ok (posSst.map g) := by
    unfold posInSstToPosInPanel2
    apply mapM_ok
    intro p hp
    have := hq p hp
    have hind : pdl[p - 1]? = some pdl[p - 1] := List.getElem?_eq_getElem (by omega)
    rw [pyGet_ok (show p - 1 < pdl.length by omega)]
    show (if pdl[p - 1] = -1 then (pure (10 ^ 10) : Py Nat) else
      pure ((pdl.take p).filter (fun x => x != -1)).length) = _
    simp only [g, hind, Option.some.injEq]
    split
    · rfl
    · rw [← List.countP_eq_length_filter]; rfl
  refine ⟨_, hmap, by simp, ?_, ?_⟩
  · intro m p hp
    rw [List.getElem?_map, hp]
    simp only [Option.map_some, g]
    refine ⟨fun h => by rw [if_pos h], fun q hh => ?_⟩
    rw [if_neg hh.2.2.1, hh.2.2.2]
  · intro hs hl
    rw [C18_table_to_panel posSst pdl hs hq]
    congr 1
    clear hs hmap
    induction posSst with
    | nil => rfl
    | cons p t ih =>
      have iht := ih (fun x hx => hq x (by simp [hx]))
      rw [List.map_cons, List.filter_cons, List.filter_cons]
      by_cases hp : pdl[p - 1]? = some (-1)
      · have e : g p = 10 ^ 10 := by simp only [g, if_pos hp]
        rw [if_neg (by simpa using hp), e, if_neg (by simp)]
        exact iht
      · have e : g p = Spec.plyCount pdl p := by simp only [g, if_neg hp]
        have hlt : Spec.plyCount pdl p ≠ 10 ^ 10 := by
          have h1 : Spec.plyCount pdl p ≤ pdl.length := by
            unfold Spec.plyCount
            exact (List.countP_le_length).trans (by simp)
          omega
        rw [if_pos (by simpa using hp), e, if_pos (by simpa using hlt), List.map_cons, iht]

/-- C18: going from the laminate to the table and back gives the same plies. -/
theorem C18_round_trip (posRef : List Nat) (pdl : Stack) (hs : posRef.Pairwise (· < ·))
    (hq : ∀ q ∈ posRef, 1 ≤ q ∧ q ≤ Spec.plyCount pdl pdl.length) :
    ∃ sst, posInSsRefToPosInSst posRef pdl = .ok sst ∧ posInSstToPosInPanel sst pdl = .ok posRef := by
  obtain ⟨out, ho, hl, hh⟩ := C18_ref_to_table posRef pdl (hs.imp (fun h => Nat.ne_of_lt h)) hq
  refine ⟨out, ho, ?_⟩
  have hmono : out.Pairwise (· < ·) := by
    rw [List.pairwise_iff_getElem]
    intro i j hi hj hij
    obtain ⟨p, hp, h1⟩ := hh i posRef[i] (List.getElem?_eq_getElem (by omega))
    obtain ⟨p', hp', h2⟩ := hh j posRef[j] (List.getElem?_eq_getElem (by omega))
    rw [List.getElem?_eq_getElem hi, Option.some.injEq] at hp
    rw [List.getElem?_eq_getElem hj, Option.some.injEq] at hp'
    rw [hp, hp']
    by_contra hlt
    have := plyCount_mono pdl (show p' ≤ p by omega)
    rw [h1.2.2.2, h2.2.2.2] at this
    have := List.pairwise_iff_getElem.1 hs i j (by omega) (by omega) hij
    omega
  have hall : ∀ p ∈ out, ∃ q, Spec.HoldsPly pdl p q := by
    intro p hp
    obtain ⟨i, hi, rfl⟩ := List.mem_iff_getElem.1 hp
    obtain ⟨p', hp', h2⟩ := hh i posRef[i] (List.getElem?_eq_getElem (by omega))
    rw [List.getElem?_eq_getElem hi, Option.some.injEq] at hp'
    exact ⟨_, hp' ▸ h2⟩
  rw [C18_table_to_panel out pdl hmono (fun p hp => by
    obtain ⟨q, hq⟩ := hall p hp; exact ⟨hq.1, hq.2.1⟩)]
  congr 1
  rw [List.filter_eq_self.2 (fun p hp => by
    obtain ⟨q, hq⟩ := hall p hp; simpa using hq.2.2.1)]
  apply List.ext_getElem?
  intro m
  by_cases hm : m < posRef.length
  · obtain ⟨p, hp, h1⟩ := hh m posRef[m] (List.getElem?_eq_getElem hm)
    rw [List.getElem?_map, hp, List.getElem?_eq_getElem hm]
    simp [h1.2.2.2]
  · rw [List.getElem?_eq_none (by simp; omega), List.getElem?_eq_none (by omega)]

example : posInSsRefToPosInSst [3, 1] [0, -1, 1, 2, -1] = .ok [4, 1] := by decide +kernel
example : posInSstToPosInPanel [1, 2, 4] [0, -1, 1, 2, -1] = .ok [1, 3] := by decide +kernel
example : Spec.HoldsPly [0, -1, 1, 2, -1] 4 3 := by
  refine ⟨by decide, by decide, by decide, by decide⟩

/-- C18, violation: asking twice for the same ply silently loses every later position. -/
theorem C18_duplicate_positions_violation :
    posInSsRefToPosInSst [1, 1, 2] [0, 1, 2] = .ok [1] := by decide +kernel

end Bella
