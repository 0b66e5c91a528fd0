import Verif.Proofs.Windows
/-
Lemmas on the disorientation functions.
-/
namespace Bella

theorem isDiso_iff (a b d : Int) (ha : -90 ≤ a ∧ a ≤ 90) (hb : -90 ≤ b ∧ b ≤ 90) :
    isDiso a b d = true ↔ Spec.WithinAngle d a b := by
  unfold isDiso Spec.WithinAngle
  constructor
  · intro h
    split at h
    · cases h
    · rename_i hn
      simp only [not_and_or, not_lt, gt_iff_lt] at hn
      rcases hn with h | h | h
      · exact ⟨0, by rw [abs_le]; omega⟩
      · exact ⟨1, by rw [abs_le]; omega⟩
      · exact ⟨-1, by rw [abs_le]; omega⟩
  · rintro ⟨k, hk⟩
    rw [abs_le] at hk
    split
    · rename_i hn
      exfalso
      rcases lt_trichotomy k 0 with h | h | h
      · have : k ≤ -1 := by omega
        omega
      · subst h; omega
      · omega
    · rfl

theorem isDiso_comm (a b d : Int) : isDiso a b d = isDiso b a d := by
  unfold isDiso
  congr 1
  simp only [eq_iff_iff]
  omega

theorem disoOK_iff_nth (d : Int) (ss : Stack) :
    Spec.DisoOK d ss ↔ ∀ i, i < ss.length - 1 → Spec.WithinAngle d (nth ss i) (nth ss (i + 1)) := by
  constructor
  · intro h i hi
    rw [nth_eq_getElem _ _ (by omega), nth_eq_getElem _ _ (by omega)]
    exact h i _ _ (List.getElem?_eq_getElem _) (List.getElem?_eq_getElem _)
  · intro h i a b ha hb
    obtain ⟨h1, rfl⟩ := List.getElem?_eq_some_iff.1 ha
    obtain ⟨h2, rfl⟩ := List.getElem?_eq_some_iff.1 hb
    have := h i (by omega)
    rwa [nth_eq_getElem _ _ h1, nth_eq_getElem _ _ h2] at this

theorem pairsWithin_iff_nth (d : Int) (ss : Stack) (lo hi : Nat) :
    Spec.PairsWithin d ss lo hi ↔ ∀ i, lo ≤ i → i < hi → i < ss.length - 1 →
      Spec.WithinAngle d (nth ss i) (nth ss (i + 1)) := by
  constructor
  · intro h i h1 h2 hi
    rw [nth_eq_getElem _ _ (by omega), nth_eq_getElem _ _ (by omega)]
    exact h i _ _ h1 h2 (List.getElem?_eq_getElem _) (List.getElem?_eq_getElem _)
  · intro h i a b h1 h2 ha hb
    obtain ⟨h1, rfl⟩ := List.getElem?_eq_some_iff.1 ha
    obtain ⟨h2, rfl⟩ := List.getElem?_eq_some_iff.1 hb
    have := h i (by omega) (by omega) (by omega)
    rwa [nth_eq_getElem _ _ h1, nth_eq_getElem _ _ h2] at this

/-- every ply angle lies in `[-90, 90]` -/
def InRange (ss : Stack) : Prop := ∀ a ∈ ss, -90 ≤ a ∧ a ≤ 90

theorem InRange.nth {ss : Stack} (h : InRange ss) (i : Nat) : -90 ≤ Bella.nth ss i ∧ Bella.nth ss i ≤ 90 := by
  unfold Bella.nth
  by_cases hi : i < ss.length
  · simp only [List.getD, List.getElem?_eq_getElem hi, Option.getD_some]
    exact h _ (List.getElem_mem hi)
  · simp [List.getD, hi]

theorem withinAngle_comm {d a b : Int} (h : Spec.WithinAngle d a b) : Spec.WithinAngle d b a := by
  obtain ⟨k, hk⟩ := h
  refine ⟨-k, ?_⟩
  rw [abs_le] at *
  constructor <;> omega

theorem withinAngle_self {d a : Int} (h : 0 ≤ d) : Spec.WithinAngle d a a := ⟨0, by simpa using h⟩

theorem withinAngle_180 {a b : Int} : Spec.WithinAngle 180 a b :=
  ⟨-((a - b) / 180), by rw [abs_le]; constructor <;> omega⟩

theorem nth_reverse (ss : Stack) (i : Nat) (h : i < ss.length) :
    nth ss.reverse i = nth ss (ss.length - 1 - i) := by
  rw [nth_eq_getElem _ _ (by simpa using h), nth_eq_getElem _ _ (by omega), List.getElem_reverse]

theorem disoOK_reverse {d : Int} {ss : Stack} (h : Spec.DisoOK d ss) : Spec.DisoOK d ss.reverse := by
  rw [disoOK_iff_nth] at *
  intro i hi
  simp only [List.length_reverse] at hi
  rw [nth_reverse _ _ (by omega), nth_reverse _ _ (by omega)]
  have := h (ss.length - 1 - (i + 1)) (by omega)
  have e : ss.length - 1 - (i + 1) + 1 = ss.length - 1 - i := by omega
  rw [e] at this
  exact withinAngle_comm this

theorem disoOK_infix {d : Int} {ss tt : Stack} (h : Spec.DisoOK d ss) (hi : tt <:+: ss) :
    Spec.DisoOK d tt := by
  obtain ⟨s, t, rfl⟩ := hi
  intro i a b ha hb
  refine h (s.length + i) a b ?_ ?_
  · obtain ⟨h1, rfl⟩ := List.getElem?_eq_some_iff.1 ha
    rw [List.getElem?_append_left (by simp; omega), List.getElem?_append_right (by omega)]
    simp
  · obtain ⟨h1, rfl⟩ := List.getElem?_eq_some_iff.1 hb
    rw [List.getElem?_append_left (by simp; omega), List.getElem?_append_right (by omega)]
    have e : s.length + i + 1 - s.length = i + 1 := by omega
    rw [e]; exact hb

theorem countTrue_map (l : List α) (f : α → Bool) : countTrue (l.map f) = l.countP f := by
  simp [countTrue, List.countP_map, Function.comp_def]

open Classical in
theorem disoViolations_eq (d : Int) (ss : Stack) :
    Spec.disoViolations d ss =
      (List.range (ss.length - 1)).countP
        (fun i => decide (¬ Spec.WithinAngle d (nth ss i) (nth ss (i + 1)))) := by
  unfold Spec.disoViolations
  have : ss.zip ss.tail = (List.range (ss.length - 1)).map (fun i => (nth ss i, nth ss (i + 1))) := by
    apply List.ext_getElem
    · simp
    · intro i h1 h2
      simp only [List.length_map, List.length_range] at h2
      simp only [List.getElem_zip, List.getElem_tail, List.getElem_map, List.getElem_range]
      rw [nth_eq_getElem _ _ (by omega), nth_eq_getElem _ _ (by omega)]
  rw [this, List.countP_map]
  rfl

theorem disoViolations_eq_zero (d : Int) (ss : Stack) :
    Spec.disoViolations d ss = 0 ↔ Spec.DisoOK d ss := by
  rw [disoViolations_eq, disoOK_iff_nth, List.countP_eq_zero]
  simp

theorem contigViolations_eq_zero (n : Nat) (ss : Stack) :
    Spec.contigViolations n ss = 0 ↔ Spec.ContigOK n ss := by
  unfold Spec.contigViolations Spec.ContigOK
  rw [List.countP_eq_zero]
  simp only [decide_eq_true_eq, not_exists, List.mem_tails]
  constructor
  · intro h a hi
    obtain ⟨t, h1, h2⟩ := List.infix_iff_prefix_suffix.1 hi
    exact h t h2 a h1
  · intro h t ht a hp
    exact h a (List.infix_iff_prefix_suffix.2 ⟨t, hp, ht⟩)

end Bella
