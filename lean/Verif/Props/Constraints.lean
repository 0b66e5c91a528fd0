import Verif.Proofs.Cons
import Verif.Props.Balance
/-
Property C14: every constraint object that can be built is well formed; consequences for the
balance penalty (C06).
-/
namespace Bella

/-- C14: the stored set of angles is strictly increasing, contains exactly the angles passed
(which had no repetition), lies in `(-90, 90]` and contains the opposite of each angle but 90. -/
theorem C14_angles (a : ConsArgs) (c : Cons) (h : mkConstraints a = .ok c) :
    c.angles.Pairwise (· < ·) ∧ (∀ x, x ∈ c.angles ↔ x ∈ a.setOfAngles) ∧ a.setOfAngles.Nodup ∧
    c.nAngles = c.angles.length ∧
    (∀ x ∈ c.angles, -90 < x ∧ x ≤ 90) ∧ (∀ x ∈ c.angles, x ≠ 90 → -x ∈ c.angles) ∧
    (∃ x ∈ c.angles, 0 < x ∧ x < 90) ∧
    (a.rule10 = true → 0 ∈ c.angles ∧ 45 ∈ c.angles ∧ 90 ∈ c.angles ∧ -45 ∈ c.angles) := by
  obtain ⟨p, _, _, _, _, h4, h5, h6, h7, h8, _, rfl⟩ := mkConstraints_inv a c h
  refine ⟨sorted_npUnique _, mem_npUnique _, ?_, (length_npUnique _).symm, h4, h6, ?_, h5⟩
  · have hs : a.setOfAngles.dedup.Sublist a.setOfAngles := List.dedup_sublist _
    rw [← hs.eq_of_length h8]
    exact List.nodup_dedup _
  · unfold mkAnglesBal at h7
    simp only [ne_eq, List.map_eq_nil_iff] at h7
    obtain ⟨x, hx⟩ := List.exists_mem_of_ne_nil _ h7
    simp only [List.mem_filter, Bool.and_eq_true, decide_eq_true_eq] at hx
    exact ⟨x, hx.1, hx.2⟩

/-- C14: the dictionary of positions maps each allowed angle to its own position in the set of
angles, `-90` to the position of 90, and contains no other key. -/
theorem C14_dict (a : ConsArgs) (c : Cons) (h : mkConstraints a = .ok c) (x : Int) (i : Nat) :
    c.indAngles.lookup x = some i ↔
      c.angles[i]? = some x ∨ (x = -90 ∧ c.angles[i]? = some 90) := by
  obtain ⟨p, _, _, _, _, h4, _, _, _, _, _, rfl⟩ := mkConstraints_inv a c h
  exact lookup_mkIndAngles _ (nodup_npUnique _) h4 x i

/-- C14: the positions of 0, 45, 90 and -45 are exact, and defined iff the angle is allowed. -/
theorem C14_indices (a : ConsArgs) (c : Cons) (h : mkConstraints a = .ok c) (i : Nat) :
    (c.index0 = some i ↔ c.angles[i]? = some 0) ∧ (c.index45 = some i ↔ c.angles[i]? = some 45) ∧
    (c.index90 = some i ↔ c.angles[i]? = some 90) ∧
    (c.index135 = some i ↔ c.angles[i]? = some (-45)) := by
  obtain ⟨p, _, _, _, _, _, _, _, _, _, _, rfl⟩ := mkConstraints_inv a c h
  exact ⟨idxOf?_eq_some_iff _ (nodup_npUnique _) _ _, idxOf?_eq_some_iff _ (nodup_npUnique _) _ _,
    idxOf?_eq_some_iff _ (nodup_npUnique _) _ _, idxOf?_eq_some_iff _ (nodup_npUnique _) _ _⟩

/-- C14: the table used for balance lists exactly the angles strictly between 0 and 90, each with
the positions of the angle and of its opposite. -/
theorem C14_angles_bal (a : ConsArgs) (c : Cons) (h : mkConstraints a = .ok c) (x : Int)
    (i j : Nat) :
    (x, i, j) ∈ c.anglesBal ↔
      0 < x ∧ x < 90 ∧ c.angles[i]? = some x ∧ c.angles[j]? = some (-x) := by
  obtain ⟨p, _, _, _, _, h4, _, h6, _, _, _, rfl⟩ := mkConstraints_inv a c h
  simp only [mkAnglesBal, List.mem_map, List.mem_filter, Bool.and_eq_true, decide_eq_true_eq,
    Prod.mk.injEq]
  have hl := fun x i => lookup_mkIndAngles _ (nodup_npUnique a.setOfAngles) h4 x i
  constructor
  · rintro ⟨e, ⟨he, hp, hlt⟩, rfl, hi, hj⟩
    refine ⟨hp, hlt, ?_, ?_⟩
    · obtain ⟨k, hk⟩ := List.mem_iff_getElem?.1 he
      have := (hl e k).2 (Or.inl hk)
      rw [this] at hi
      simp only [Option.getD_some] at hi
      rw [← hi]; exact hk
    · have hne : -e ∈ npUnique a.setOfAngles := h6 e he (by omega)
      obtain ⟨k, hk⟩ := List.mem_iff_getElem?.1 hne
      have := (hl (-e) k).2 (Or.inl hk)
      rw [this] at hj
      simp only [Option.getD_some] at hj
      rw [← hj]; exact hk
  · rintro ⟨hp, hlt, hi, hj⟩
    refine ⟨x, ⟨List.mem_of_getElem? hi, hp, hlt⟩, rfl, ?_, ?_⟩
    · rw [(hl x i).2 (Or.inl hi)]; rfl
    · rw [(hl (-x) j).2 (Or.inl hj)]; rfl

/-- C14: no position appears twice in the table used for balance. -/
theorem C14_angles_bal_nodup (a : ConsArgs) (c : Cons) (h : mkConstraints a = .ok c) :
    (c.anglesBal.flatMap (fun t => [t.2.1, t.2.2])).Nodup := by
  have hb := C14_angles_bal a c h
  obtain ⟨p, _, _, _, _, h4, _, h6, _, _, _, rfl⟩ := mkConstraints_inv a c h
  have hes : ((npUnique a.setOfAngles).filter
      (fun e => decide (e > 0) && decide (e < 90))).Nodup := (nodup_npUnique _).filter _
  have hb' : ∀ x i j, (x, i, j) ∈ mkAnglesBal (npUnique a.setOfAngles)
      (mkIndAngles (npUnique a.setOfAngles)) →
      0 < x ∧ (npUnique a.setOfAngles)[i]? = some x ∧ (npUnique a.setOfAngles)[j]? = some (-x) := by
    intro x i j hm
    have := (hb x i j).1 hm
    exact ⟨this.1, this.2.2⟩
  have hfst : ((mkAnglesBal (npUnique a.setOfAngles)
      (mkIndAngles (npUnique a.setOfAngles))).map Prod.fst).Nodup := by
    unfold mkAnglesBal
    rw [List.map_map]
    simpa [Function.comp_def] using hes
  simp only
  generalize hab : mkAnglesBal (npUnique a.setOfAngles)
    (mkIndAngles (npUnique a.setOfAngles)) = ab at *
  clear hb hab hes h
  rename_i hab0
  clear hab0
  induction ab with
  | nil => simp
  | cons t ab ih =>
    obtain ⟨x, i, j⟩ := t
    simp only [List.map_cons, List.nodup_cons] at hfst
    obtain ⟨h0, hi, hj⟩ := hb' x i j (by simp)
    have ih' := ih (fun x i j hm => hb' x i j (by simp [hm])) hfst.2
    simp only [List.flatMap_cons, List.cons_append, List.nil_append, List.nodup_cons,
      List.mem_cons, not_or, List.mem_flatMap, not_exists, not_and]
    have hother : ∀ k : Nat, (npUnique a.setOfAngles)[k]? = some x ∨
        (npUnique a.setOfAngles)[k]? = some (-x) → ∀ t ∈ ab, ¬ k ∈ [t.2.1, t.2.2] := by
      rintro k hk ⟨y, i', j'⟩ ht hmem
      obtain ⟨g0, gi, gj⟩ := hb' y i' j' (by simp [ht])
      have hxy : x ≠ y := by
        rintro rfl
        exact hfst.1 (List.mem_map.2 ⟨_, ht, rfl⟩)
      simp only [List.mem_cons, List.not_mem_nil, or_false] at hmem
      rcases hmem with rfl | rfl
      · rw [gi] at hk
        simp only [Option.some.injEq] at hk
        rcases hk with hk | hk <;> omega
      · rw [gj] at hk
        simp only [Option.some.injEq] at hk
        rcases hk with hk | hk <;> omega
    refine ⟨⟨?_, fun t ht => ?_⟩, fun t ht => ?_, ih'⟩
    rotate_left
    · have := hother i (Or.inl hi) t ht
      simpa using this
    · have := hother j (Or.inr hj) t ht
      simpa using this
    rintro rfl
    rw [hi] at hj
    simp only [Option.some.injEq] at hj
    omega

/-- C14: the stored percentages are fractions between 0 and 1; they all vanish when the rule is
off or is imposed on lamination parameters, and `percent_tot` bounds both totals. -/
theorem C14_percentages (a : ConsArgs) (c : Cons) (h : mkConstraints a = .ok c) :
    (0 ≤ c.p0 ∧ c.p0 ≤ 1) ∧ (0 ≤ c.p45 ∧ c.p45 ≤ 1) ∧ (0 ≤ c.p90 ∧ c.p90 ≤ 1) ∧
    (0 ≤ c.p135 ∧ c.p135 ≤ 1) ∧ (0 ≤ c.p45_135 ∧ c.p45_135 ≤ 1) ∧
    (0 ≤ c.pAbdalla ∧ c.pAbdalla < 1 / 4) ∧
    (c.rule10 = false ∨ c.rule10Abdalla = true →
      c.p0 = 0 ∧ c.p45 = 0 ∧ c.p90 = 0 ∧ c.p135 = 0 ∧ c.p45_135 = 0 ∧ c.pTot = 0) ∧
    c.pTot = max (c.p0 + c.p45 + c.p90 + c.p135) (c.p0 + c.p45_135 + c.p90) ∧
    (c.p45_135 = 0 ∨ (c.p45 = 0 ∧ c.p135 = 0)) := by
  obtain ⟨p, hp, _, _, _, _, _, _, _, _, _, rfl⟩ := mkConstraints_inv a c h
  unfold setPercentages badPercent at hp
  simp only [Bool.or_eq_true, decide_eq_true_eq] at hp
  split at hp
  · cases hp
  rename_i g0
  split at hp
  · cases hp
  rename_i g1
  split at hp
  · cases hp
  rename_i g2
  split at hp
  · cases hp
  rename_i g3
  split at hp
  · cases hp
  rename_i g4
  split at hp
  · cases hp
  rename_i g5
  simp only [not_or, not_lt, gt_iff_lt] at g0 g1 g2 g3 g4 g5
  split at hp
  · rename_i r
    split at hp
    · rename_i ra
      cases Except.ok.inj hp
      simp only
      refine ⟨by norm_num, by norm_num, by norm_num, by norm_num, by norm_num,
        ⟨by linarith, by linarith⟩, by simp, by norm_num, by simp⟩
    · rename_i ra
      cases Except.ok.inj hp
      simp only
      cases combineFlag a
      · simp only [Bool.false_eq_true, if_false]
        refine ⟨⟨by linarith, by linarith⟩, ⟨by linarith, by linarith⟩, ⟨by linarith, by linarith⟩,
          ⟨by linarith, by linarith⟩, by norm_num, by norm_num, ?_, trivial, by simp⟩
        rintro (h1 | h1)
        · rw [h1] at r; cases r
        · exact absurd h1 ra
      · simp only [if_true]
        refine ⟨⟨by linarith, by linarith⟩, by norm_num, ⟨by linarith, by linarith⟩, by norm_num,
          ⟨by linarith, by linarith⟩, by norm_num, ?_, trivial, by simp⟩
        rintro (h1 | h1)
        · rw [h1] at r; cases r
        · exact absurd h1 ra
  · cases Except.ok.inj hp
    simp only
    refine ⟨by norm_num, by norm_num, by norm_num, by norm_num, by norm_num, by norm_num, by simp,
      by norm_num, by simp⟩

/-- C14: damage tolerance switches covering on, with two covering plies for rules 2 and 3 and at
least one for rule 1; covering implies one or two covering plies; `n_contig` is never 1 when
contiguity is on; `min_drop` is positive; with disorientation off any two angles are accepted. -/
theorem C14_rules (a : ConsArgs) (c : Cons) (h : mkConstraints a = .ok c) :
    (c.damTol = true → c.covering = true ∧
      ((c.damTolAttr = .rule 1 ∧ 1 ≤ c.nCovering) ∨
       (c.damTolAttr = .rule 2 ∧ c.nCovering = 2) ∨ (c.damTolAttr = .rule 3 ∧ c.nCovering = 2))) ∧
    (c.damTol = false → c.damTolAttr = .rule 0) ∧
    (c.covering = true → 1 ≤ c.nCovering) ∧ c.nCovering ≤ 2 ∧
    (c.contig = true → c.nContig ≠ 1 ∧ c.nContigC = c.nContig) ∧
    (c.contig = false → c.nContig = 1 ∧ c.nContigC = 10 ^ 10) ∧
    1 ≤ c.minDrop ∧ c.ipo = c.bal ∧
    (c.diso = false → ∀ x y, isDiso x y c.deltaAngle = true ∨ ¬ (x ∈ c.angles ∧ y ∈ c.angles)) := by
  obtain ⟨p, _, h1, h2, h3, h4, _, _, _, _, h9, rfl⟩ := mkConstraints_inv a c h
  simp only
  refine ⟨?_, ?_, ?_, ?_, ?_, ?_, h9, trivial, ?_⟩
  · intro hd
    rw [hd]
    simp only [if_true, true_and]
    rcases h1 hd with e | e | e <;> rw [e]
    · simp
    · simp
    · simp
  · intro hd; rw [hd]; simp
  · intro hc
    rw [hc]; simp
  · split_ifs <;> omega
  · intro hc
    rw [hc]; simp only [if_true]
    exact ⟨fun e => h3 ⟨hc, e⟩, trivial⟩
  · intro hc
    rw [hc]; simp
  · intro hd x y
    rw [hd]
    simp only [Bool.false_eq_true, if_false]
    by_cases hxy : x ∈ npUnique a.setOfAngles ∧ y ∈ npUnique a.setOfAngles
    · left
      have := h4 x hxy.1
      have := h4 y hxy.2
      unfold isDiso
      rw [if_neg]
      omega
    · right; exact hxy

/-- arguments of a typical constraint object: symmetric balanced laminate, all rules on. -/
def exArgs : ConsArgs :=
  { sym := true, bal := true, damTol := true, damTolRule := 2, rule10 := true, percent0 := 10,
    percent45 := 0, percent90 := 10, percent135 := 0, percent45_135 := 10, diso := true,
    deltaAngle := 45, contig := true, nContig := 4, setOfAngles := [0, 45, -45, 90],
    pdlSpacing := true, minDrop := 2 }

/-- extraction of a successful result from a computed test -/
theorem ok_of_test {α : Type} (x : Py α) (P : α → Bool)
    (h : (match x with | .ok c => P c | .error _ => false) = true) : ∃ c, x = .ok c ∧ P c = true := by
  cases x with
  | error e => cases h
  | ok c => exact ⟨c, rfl, h⟩

theorem exArgs_ok : ∃ c, mkConstraints exArgs = .ok c ∧ c.angles = [-45, 0, 45, 90] ∧
    c.nCovering = 2 ∧ c.p45_135 = 1 / 10 ∧ c.anglesBal = [(45, 2, 0)] := by
  obtain ⟨c, h, hp⟩ := ok_of_test (mkConstraints exArgs) (fun c => decide (
    c.angles = [-45, 0, 45, 90] ∧ c.nCovering = 2 ∧ c.p45_135 = 1 / 10 ∧
    c.anglesBal = [(45, 2, 0)])) (by decide +kernel)
  exact ⟨c, h, by simpa using hp⟩

example : ∃ a c, mkConstraints a = .ok c ∧ c.rule10 = true ∧ c.diso = true := by
  obtain ⟨c, h, hp⟩ := ok_of_test (mkConstraints exArgs) (fun c => decide (
    c.rule10 = true ∧ c.diso = true)) (by decide +kernel)
  exact ⟨exArgs, c, h, by simpa using hp⟩

/-- C14 (violation found): percentages adding up to more than 100% are only reported by a printed
message, the constraint object is built although no laminate can satisfy it. -/
theorem C14_percentages_sum_unchecked :
    ∃ a c, mkConstraints a = .ok c ∧ c.p0 + c.p45 + c.p90 + c.p135 > 1 := by
  obtain ⟨c, h, hp⟩ := ok_of_test
    (mkConstraints { rule10 := true, percent0 := 60, percent90 := 60 })
    (fun c => decide (c.p0 + c.p45 + c.p90 + c.p135 > 1)) (by decide +kernel)
  exact ⟨_, c, h, by simpa using hp⟩

/-- C14 (violation found): `n_contig = 0` and `n_contig = 7` are accepted by the constructor although
`is_contig` raises on every laminate longer than the limit. -/
theorem C14_n_contig_unchecked :
    (∃ c, mkConstraints { contig := true, nContig := 0 } = .ok c ∧ c.nContig = 0) ∧
    (∃ c, mkConstraints { contig := true, nContig := 7 } = .ok c ∧ c.nContig = 7) ∧
    (∀ ss : Stack, 7 < ss.length →
      (∃ e, isContig ss 0 = .error e) ∧ (∃ e, isContig ss 7 = .error e)) := by
  refine ⟨?_, ?_, ?_⟩
  · obtain ⟨c, h, hp⟩ := ok_of_test (mkConstraints { contig := true, nContig := 0 })
      (fun c => decide (c.nContig = 0)) (by decide +kernel)
    exact ⟨c, h, by simpa using hp⟩
  · obtain ⟨c, h, hp⟩ := ok_of_test (mkConstraints { contig := true, nContig := 7 })
      (fun c => decide (c.nContig = 7)) (by decide +kernel)
    exact ⟨c, h, by simpa using hp⟩
  intro ss h
  constructor
  · exact ⟨.exc "n_contig must be 2, 3, 4 or 5.", by
      unfold isContig; simp only; rw [if_pos (by omega)]; simp⟩
  · exact ⟨.exc "n_contig must be 2, 3, 4 or 5.", by
      unfold isContig; simp only; rw [if_pos (by omega)]; simp⟩

/-- C14 (violation found): a requested minimum of +45 plies is silently dropped when a larger minimum
is requested for the +45 and -45 plies together. -/
theorem C14_percent_45_dropped :
    ∃ a c, mkConstraints a = .ok c ∧ a.rule10 = true ∧ a.percent45 = 10 ∧ c.p45 = 0 := by
  obtain ⟨c, h, hp⟩ := ok_of_test
    (mkConstraints { rule10 := true, percent45 := 10, percent45_135 := 30 })
    (fun c => decide (c.p45 = 0)) (by decide +kernel)
  exact ⟨_, c, h, rfl, rfl, by simpa using hp⟩

end Bella
