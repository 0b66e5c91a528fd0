import Verif.Proofs.Diso
/-
Properties C04, C05: contiguity.
-/
namespace Bella

/-- C04: `is_contig` accepts exactly the laminates without a block of more than `n` equal plies. -/
theorem C04_is_contig_iff (ss : Stack) (n : Nat) (h2 : 2 ≤ n) (h6 : n ≤ 6) :
    (isContig ss n = .ok true ↔ Spec.ContigOK n ss) ∧
    (isContig ss n = .ok false ↔ ¬ Spec.ContigOK n ss) := by
  refine ⟨isContig_ok_true ss n h2 h6, ?_⟩
  rw [← isContig_ok_true ss n h2 h6]
  obtain ⟨b, hb⟩ := isContig_total ss n h2 h6
  rw [hb]
  cases b <;> simp

/-- C04: the verdict is the same for the laminate turned upside down. -/
theorem C04_is_contig_reverse (ss : Stack) (n : Nat) (h2 : 2 ≤ n) (h6 : n ≤ 6) :
    isContig ss.reverse n = isContig ss n := by
  obtain ⟨b, hb⟩ := isContig_total ss n h2 h6
  obtain ⟨c, hc⟩ := isContig_total ss.reverse n h2 h6
  have h : isContig ss.reverse n = .ok true ↔ isContig ss n = .ok true := by
    rw [isContig_ok_true _ n h2 h6, isContig_ok_true _ n h2 h6]
    exact ⟨fun h => by simpa using contigOK_reverse h, contigOK_reverse⟩
  rw [hb, hc] at *
  cases b <;> cases c <;> simp_all

/-- C04: contiguous parts of an accepted laminate are accepted, and so is a larger limit. -/
theorem C04_is_contig_infix_mono (ss tt : Stack) (n m : Nat) (h2 : 2 ≤ n) (hnm : n ≤ m)
    (h6 : m ≤ 6) (htt : tt <:+: ss) (h : isContig ss n = .ok true) : isContig tt m = .ok true := by
  rw [isContig_ok_true _ _ h2 (by omega)] at h
  rw [isContig_ok_true _ _ (by omega) h6]
  exact contigOK_infix (contigOK_mono hnm h) htt

/-- C04: outside the supported limits: a limit of 1 accepts everything, 7 and more raise as soon
as the laminate is longer than the limit. -/
theorem C04_is_contig_unsupported (ss : Stack) (n : Nat) :
    isContig ss 1 = .ok true ∧
    (7 ≤ n → n < ss.length → isContig ss n = .error (.exc "n_contig must be 2, 3, 4 or 5.")) := by
  constructor
  · simp [isContig]
  · intro h1 h2
    have h3 : ¬ (n = 2 ∨ n = 3 ∨ n = 4 ∨ n = 5 ∨ n = 6) := by omega
    have h4 : n ≠ 1 := by omega
    unfold isContig
    simp only [h2, if_true, h3, if_false, h4, ne_eq, not_false_eq_true]

example : isContig [0, 0, 0, 0, 45, 90, 90] 4 = .ok true ∧
    isContig [0, 45, 45, 45, 45, 45, 90] 4 = .ok false ∧
    isContig [45, 45, 90, 0, 0, 0] 2 = .ok false := by decide

theorem slice_window (ss : Stack) (i n : Nat) :
    slice ss i (i + n + 1) = (ss.drop i).take (n + 1) := by
  unfold slice
  rw [List.drop_take]
  congr 1; omega

theorem isContig_window (ss : Stack) (n i : Nat) (h2 : 2 ≤ n) (h6 : n ≤ 6) :
    isContig (slice ss i (i + n + 1)) n = .ok false ↔
      ∃ a, List.replicate (n + 1) a <+: ss.drop i := by
  rw [(C04_is_contig_iff _ n h2 h6).2, slice_window, Spec.ContigOK]
  push Not
  constructor
  · rintro ⟨a, ha⟩
    refine ⟨a, ?_⟩
    have hl := ha.length_le
    have : List.replicate (n + 1) a = (ss.drop i).take (n + 1) := by
      apply ha.eq_of_length_le
      simp
    rw [this]
    exact List.take_prefix _ _
  · rintro ⟨a, t, ht⟩
    refine ⟨a, ?_⟩
    rw [← ht]
    rw [List.take_left' (by simp)]

theorem violContigLoop_eq (ss : Stack) (n : Nat) (h2 : 2 ≤ n) (h6 : n ≤ 6) :
    ∀ (l : List Nat) (b : Nat), ∃ row, violContigLoop ss n l b = .ok row ∧
      row = l.map (fun i => decide (isContig (slice ss i (i + n + 1)) n = .ok false)) := by
  intro l
  induction l with
  | nil => intro b; exact ⟨[], rfl, rfl⟩
  | cons i l ih =>
    intro b
    obtain ⟨c, hc⟩ := isContig_total (slice ss i (i + n + 1)) n h2 h6
    obtain ⟨r0, h0, e0⟩ := ih 0
    obtain ⟨r1, h1, e1⟩ := ih 1
    refine ⟨_, ?_, rfl⟩
    unfold violContigLoop
    simp only [bind, Except.bind, hc, h0, h1, pure, Except.pure]
    cases c
    · simp only [Bool.not_false, if_true]
      split <;> simp [e1, hc]
    · simp [e0, hc]

open Classical in
theorem tails_countP (ss : Stack) (P : Stack → Prop) (hP : ¬ P []) :
    ss.tails.countP (fun t => decide (P t)) =
      (List.range ss.length).countP (fun i => decide (P (ss.drop i))) := by
  induction ss with
  | nil => simp [hP]
  | cons a ss ih =>
    rw [List.tails_cons, List.countP_cons, ih, List.length_cons, List.range_succ_eq_map,
      List.countP_cons, List.countP_map]
    simp [Function.comp_def]

/-- C05: the reported number of violations is the number of positions at which a block of
`n + 1` equal plies starts, the plies on both surfaces being removed first under the two-ply
damage tolerance rules. -/
theorem C05_penalty_exact (ss : Stack) (n : Nat) (dt : Bool) (attr : DamTolAttr)
    (h2 : 2 ≤ n) (h6 : n ≤ 6) :
    calcPenaltyContigSs ss n dt attr = .ok (Spec.contigViolations n
      (if dt = true ∧ attr.twoPlies = true then (ss.drop 1).dropLast else ss)) := by
  have e : trimDamTol ss dt attr =
      if dt = true ∧ attr.twoPlies = true then (ss.drop 1).dropLast else ss := by
    unfold trimDamTol trimEnds
    cases dt <;> cases attr.twoPlies <;> simp
  unfold calcPenaltyContigSs
  rw [e]
  generalize (if dt = true ∧ attr.twoPlies = true then (ss.drop 1).dropLast else ss) = tt
  obtain ⟨row, h, hr⟩ := violContigLoop_eq tt n h2 h6 (List.range tt.length) 0
  unfold violContigRow
  rw [h, hr]
  simp only [bind, Except.bind, pure, Except.pure, Except.ok.injEq]
  rw [countTrue_map]
  unfold Spec.contigViolations
  rw [tails_countP tt (fun t => ∃ a, List.replicate (n + 1) a <+: t) (by
    rintro ⟨a, ha⟩
    have := ha.length_le
    simp at this)]
  apply List.countP_congr
  intro i _
  simp only [decide_eq_true_eq]
  exact isContig_window tt n i h2 h6

/-- C05: the violation count is zero exactly on the laminates satisfying the guideline (surface
plies removed under the two-ply damage tolerance rules), i.e. when `is_contig` accepts. -/
theorem C05_penalty_zero_iff (ss : Stack) (n : Nat) (dt : Bool) (attr : DamTolAttr)
    (h2 : 2 ≤ n) (h6 : n ≤ 6) :
    calcPenaltyContigSs ss n dt attr = .ok 0 ↔
      isContig (if dt = true ∧ attr.twoPlies = true then (ss.drop 1).dropLast else ss) n
        = .ok true := by
  rw [C05_penalty_exact ss n dt attr h2 h6, isContig_ok_true _ n h2 h6,
    ← contigViolations_eq_zero, Except.ok.injEq]

/-- C05: the vector of violations used during the search marks exactly the positions at which a
block of `n + 1` equal plies starts. -/
theorem C05_contig_vector (ss : Stack) (n : Nat) (h2 : 2 ≤ n) (h6 : n ≤ 6) :
    ∃ v, calcContigVector ss n = .ok v ∧ v.length = ss.length - n ∧
      ∀ i, i < ss.length - n → (v[i]? = some true ↔ ∃ a, List.replicate (n + 1) a <+: ss.drop i) := by
  have key : ∀ l : List Nat, l.mapM (fun ind => do
      let ok ← isContig (slice ss ind (ind + n + 1)) n
      return !ok) = (Except.ok (l.map (fun i =>
        decide (isContig (slice ss i (i + n + 1)) n = .ok false))) : Py (List Bool)) := by
    intro l
    induction l with
    | nil => rfl
    | cons i l ih =>
      rw [List.mapM_cons, ih]
      obtain ⟨c, hc⟩ := isContig_total (slice ss i (i + n + 1)) n h2 h6
      rw [hc]
      cases c <;> simp [hc, bind, Except.bind, pure, Except.pure]
  refine ⟨(List.range (ss.length - n)).map (fun i =>
        decide (isContig (slice ss i (i + n + 1)) n = .ok false)), ?_, by simp, ?_⟩
  · unfold calcContigVector
    split
    · exact key _
    · have : ss.length - n = 0 := by omega
      simp [this]
  · intro i hi
    rw [← isContig_window ss n i h2 h6]
    simp [hi]

/-- C05: the row of a panel in the matrix of violations marks exactly the positions of the panel at
which a block of `n + 1` equal plies starts. -/
theorem C05_matrix_row (ss : Stack) (n : Nat) (h2 : 2 ≤ n) (h6 : n ≤ 6) :
    ∃ row, violContigRow ss n = .ok row ∧ row.length = ss.length ∧
      ∀ i, i < ss.length → (row[i]? = some true ↔ ∃ a, List.replicate (n + 1) a <+: ss.drop i) := by
  obtain ⟨row, h, hr⟩ := violContigLoop_eq ss n h2 h6 (List.range ss.length) 0
  refine ⟨row, h, by rw [hr]; simp, ?_⟩
  intro i hi
  rw [← isContig_window ss n i h2 h6, hr]
  simp [hi]

/-- C05: the multi-panel penalty lists, panel by panel, the number of positions at which a block of
`n + 1` equal plies starts (surface plies removed under the two-ply damage tolerance rules); it is
zero for every panel exactly when `is_contig` accepts every panel. -/
theorem C05_penalty_mp (sss : List Stack) (n : Nat) (dt : Bool) (attr : DamTolAttr)
    (h2 : 2 ≤ n) (h6 : n ≤ 6) :
    calcPenaltyContigMp sss n dt attr = .ok (sss.map (fun ss => Spec.contigViolations n
      (if dt = true ∧ attr.twoPlies = true then (ss.drop 1).dropLast else ss))) ∧
    (calcPenaltyContigMp sss n dt attr = .ok (List.replicate sss.length 0) ↔
      ∀ ss ∈ sss, isContig (if dt = true ∧ attr.twoPlies = true then (ss.drop 1).dropLast else ss) n
        = .ok true) := by
  have key : calcPenaltyContigMp sss n dt attr = .ok (sss.map (fun ss => Spec.contigViolations n
      (if dt = true ∧ attr.twoPlies = true then (ss.drop 1).dropLast else ss))) := by
    unfold calcPenaltyContigMp
    induction sss with
    | nil => rfl
    | cons ss sss ih =>
      rw [List.mapM_cons, C05_penalty_exact ss n dt attr h2 h6, ih]
      rfl
  refine ⟨key, ?_⟩
  rw [key, Except.ok.injEq, List.eq_replicate_iff]
  simp only [List.length_map, true_and, List.mem_map, forall_exists_index, and_imp,
    forall_apply_eq_imp_iff₂]
  refine forall_congr' fun ss => forall_congr' fun _ => ?_
  rw [isContig_ok_true _ n h2 h6, ← contigViolations_eq_zero]

example : calcPenaltyContigMp [[0, 0, 0, 0, 45], [0, 0, 45, 90]] 2 false (.rule 1) = .ok [2, 0] := by
  decide

example : calcPenaltyContigSs [0, 0, 0, 0, 45, 90, 90, 90] 2 false (.rule 1) = .ok 3 ∧
    calcPenaltyContigSs [0, 0, 0, 0, 45, 90, 90, 90] 2 true (.rule 2) = .ok 1 := by decide

end Bella
