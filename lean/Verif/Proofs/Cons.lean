import Verif.Proofs.Common
import Verif.Model.Guidelines
import Verif.Spec.Layup
/-
Lemmas on the constraint object built by the constructor.
-/
namespace Bella

/-- inversion of the constructor: the checks that passed and the value of the fields -/
theorem mkConstraints_inv (a : ConsArgs) (c : Cons) (h : mkConstraints a = .ok c) :
    ∃ p, setPercentages a = .ok p ∧
      (a.damTol = true → a.damTolRule = 1 ∨ a.damTolRule = 2 ∨ a.damTolRule = 3) ∧
      (a.nCovering = 0 ∨ a.nCovering = 1 ∨ a.nCovering = 2) ∧
      ¬ (a.contig = true ∧ a.nContig = 1) ∧
      (∀ x ∈ npUnique a.setOfAngles, -90 < x ∧ x ≤ 90) ∧
      (a.rule10 = true → 0 ∈ npUnique a.setOfAngles ∧ 45 ∈ npUnique a.setOfAngles ∧
        90 ∈ npUnique a.setOfAngles ∧ -45 ∈ npUnique a.setOfAngles) ∧
      (∀ x ∈ npUnique a.setOfAngles, x ≠ 90 → -x ∈ npUnique a.setOfAngles) ∧
      mkAnglesBal (npUnique a.setOfAngles) (mkIndAngles (npUnique a.setOfAngles)) ≠ [] ∧
      a.setOfAngles.dedup.length = a.setOfAngles.length ∧
      1 ≤ a.minDrop ∧
      c = {
        sym := a.sym, bal := a.bal, ipo := a.bal, oopo := a.oopo
        damTol := a.damTol
        damTolAttr := .rule (if a.damTol then a.damTolRule else 0)
        covering := if a.damTol then true else a.covering
        nCovering := if (if a.damTol then true else a.covering) then
          max (if a.damTol then (if a.damTolRule = 1 then max a.nCovering 1 else 2)
            else a.nCovering) 1 else
          (if a.damTol then (if a.damTolRule = 1 then max a.nCovering 1 else 2)
            else a.nCovering)
        rule10 := a.rule10, rule10Abdalla := a.rule10Abdalla
        pAbdalla := p.pAbdalla, p0 := p.p0, p45 := p.p45, p90 := p.p90, p135 := p.p135
        p45_135 := p.p45_135, pTot := p.pTot
        diso := a.diso, deltaAngle := if a.diso then a.deltaAngle else 180
        contig := a.contig
        nContig := if a.contig then a.nContig else 1
        nContigC := if a.contig then a.nContig else 10 ^ 10
        angles := npUnique a.setOfAngles
        index0 := (npUnique a.setOfAngles).idxOf? 0, index45 := (npUnique a.setOfAngles).idxOf? 45
        index90 := (npUnique a.setOfAngles).idxOf? 90
        index135 := (npUnique a.setOfAngles).idxOf? (-45)
        indAngles := mkIndAngles (npUnique a.setOfAngles)
        posAngles := npUnique ((npUnique a.setOfAngles).map (fun x => (x.natAbs : Int)))
        anglesBal := mkAnglesBal (npUnique a.setOfAngles) (mkIndAngles (npUnique a.setOfAngles))
        nAngles := a.setOfAngles.dedup.length
        pdlSpacing := a.pdlSpacing, minDrop := a.minDrop } := by
  unfold mkConstraints at h
  split at h
  · cases h
  rename_i h1
  split at h
  · cases h
  rename_i h2
  simp only [bind, Except.bind] at h
  cases hp : setPercentages a with
  | error e => rw [hp] at h; cases h
  | ok p =>
    rw [hp] at h
    simp only [throw, throwThe, MonadExceptOf.throw, pure, Except.pure] at h
    split at h
    · cases h
    rename_i h3
    split at h
    · cases h
    rename_i h4
    split at h
    · cases h
    rename_i h5
    split at h
    · cases h
    rename_i h6
    split at h
    · cases h
    rename_i h7
    split at h
    · cases h
    rename_i h8
    split at h
    · cases h
    rename_i h9
    replace h8 := not_not.1 h8
    have hc := (Except.ok.inj h).symm
    clear h
    refine ⟨p, rfl, ?_, ?_, h3, ?_, ?_, ?_, h7, h8, by omega, hc⟩
    · intro hd
      by_contra hc
      exact h1 ⟨hd, hc⟩
    · by_contra hc; exact h2 hc
    · simp only [Bool.or_eq_true, List.any_eq_true, decide_eq_true_eq, not_or, not_exists,
        not_and] at h4
      intro x hx
      have := h4.1 x hx
      have := h4.2 x hx
      omega
    · intro hr
      simp only [hr, Bool.and_true, Bool.or_eq_true, Bool.not_eq_true', not_or,
        Bool.not_eq_false, List.contains_iff_mem] at h5
      tauto
    · simp only [List.any_eq_true, Bool.and_eq_true, decide_eq_true_eq, Bool.not_eq_true',
        not_exists, not_and, Bool.not_eq_false, List.contains_iff_mem] at h6
      intro x hx hne
      exact h6 x hx hne

theorem mem_npUnique (l : List Int) (x : Int) : x ∈ npUnique l ↔ x ∈ l := by
  unfold npUnique
  rw [List.mem_insertionSort, List.mem_dedup]

theorem nodup_npUnique (l : List Int) : (npUnique l).Nodup := by
  unfold npUnique
  exact (List.perm_insertionSort _ _).nodup_iff.2 (List.nodup_dedup l)

theorem sorted_npUnique (l : List Int) : (npUnique l).Pairwise (· < ·) := by
  have h1 : (npUnique l).Pairwise (· ≤ ·) := List.pairwise_insertionSort (· ≤ ·) _
  have h2 := nodup_npUnique l
  have h3 : (npUnique l).Pairwise (fun a b => a ≤ b ∧ a ≠ b) := h1.and h2
  exact h3.imp (fun h => by omega)

theorem length_npUnique (l : List Int) : (npUnique l).length = l.dedup.length := by
  unfold npUnique; simp

theorem lookup_zipIdx (l : List Int) (a : Int) (k : Nat) :
    (l.zipIdx k).lookup a = (l.idxOf? a).map (· + k) := by
  induction l generalizing k with
  | nil => simp
  | cons x l ih =>
    rw [List.zipIdx_cons, List.lookup_cons, List.idxOf?_cons]
    by_cases h : a = x
    · subst h; simp
    · have h1 : (a == x) = false := by simpa using h
      have h2 : (x == a) = false := by simpa using fun e => h e.symm
      rw [h1, h2]
      simp only [Bool.false_eq_true, if_false]
      rw [ih]
      cases l.idxOf? a
      · simp
      · simp; omega

theorem lookup_append_int (l1 l2 : List (Int × Nat)) (a : Int) :
    (l1 ++ l2).lookup a = (l1.lookup a).or (l2.lookup a) := by
  induction l1 with
  | nil => simp
  | cons p l ih =>
    obtain ⟨k, v⟩ := p
    rw [List.cons_append, List.lookup_cons, List.lookup_cons, ih]
    split <;> simp

theorem idxOf?_eq_some_iff (l : List Int) (hl : l.Nodup) (a : Int) (i : Nat) :
    l.idxOf? a = some i ↔ l[i]? = some a := by
  induction l generalizing i with
  | nil => simp
  | cons x l ih =>
    have hx := List.nodup_cons.1 hl
    rw [List.idxOf?_cons]
    by_cases h : x = a
    · subst h
      simp only [beq_self_eq_true, if_true, Option.some.injEq]
      cases i with
      | zero => simp
      | succ i =>
        simp only [List.getElem?_cons_succ]
        constructor
        · intro h; omega
        · intro h; exact absurd (List.mem_of_getElem? h) hx.1
    · have h1 : (x == a) = false := by simpa using h
      rw [h1]
      cases i with
      | zero => simp [h]
      | succ i =>
        simp only [List.getElem?_cons_succ]
        rw [← ih hx.2]
        cases l.idxOf? a <;> simp

/-- the dictionary `ind_angles_dict`: each allowed angle is mapped to its own position, and `-90`
to the position of 90 -/
theorem lookup_mkIndAngles (l : List Int) (hl : l.Nodup) (hr : ∀ x ∈ l, -90 < x ∧ x ≤ 90)
    (a : Int) (i : Nat) :
    (mkIndAngles l).lookup a = some i ↔ l[i]? = some a ∨ (a = -90 ∧ l[i]? = some 90) := by
  unfold mkIndAngles
  have hz : ∀ b : Int, (l.zipIdx).lookup b = l.idxOf? b := by
    intro b
    have := lookup_zipIdx l b 0
    rw [this]; cases l.idxOf? b <;> simp
  have hno : l.idxOf? (-90) = none := by
    cases h : l.idxOf? (-90) with
    | none => rfl
    | some j =>
      have := (idxOf?_eq_some_iff l hl _ _).1 h
      have := (hr _ (List.mem_of_getElem? this)).1
      omega
  cases h90 : l.idxOf? 90 with
  | none =>
    simp only [hz]
    rw [idxOf?_eq_some_iff l hl]
    constructor
    · intro h; exact Or.inl h
    · rintro (h | ⟨_, h⟩)
      · exact h
      · rw [(idxOf?_eq_some_iff l hl 90 i).2 h] at h90; cases h90
  | some j =>
    simp only [lookup_append_int, hz]
    by_cases ha : a = -90
    · subst ha
      rw [hno]
      have h2 : l[i]? ≠ some (-90) := by
        intro h
        rw [← idxOf?_eq_some_iff l hl, hno] at h; cases h
      simp only [Option.none_or, List.lookup_cons, beq_self_eq_true]
      constructor
      · intro h
        cases h
        exact Or.inr ⟨trivial, (idxOf?_eq_some_iff l hl _ _).1 h90⟩
      · rintro (h | ⟨_, h⟩)
        · exact absurd h h2
        · rw [(idxOf?_eq_some_iff l hl _ _).2 h] at h90
          exact h90.symm
    · have h3 : (a == (-90 : Int)) = false := by simpa using ha
      simp only [List.lookup_cons, h3, List.lookup_nil, Option.or_none]
      rw [idxOf?_eq_some_iff l hl]
      constructor
      · intro h; exact Or.inl h
      · rintro (h | ⟨h, _⟩)
        · exact h
        · exact absurd h ha

end Bella
