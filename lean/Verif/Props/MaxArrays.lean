import Verif.Proofs.Common
import Verif.Model.Divers
/-
Property C45: element-wise maximum of arrays.
-/
namespace Bella

/-- Entry `i` of an array, with a one-element array repeated (numpy broadcasting). -/
def _root_.Spec.broadcast (x : List ℚ) (i : Nat) : ℚ := if x.length = 1 then x.getD 0 0 else x.getD i 0

theorem getD_zipWith_max (x y : List ℚ) (i : Nat) (h1 : i < x.length) (h2 : i < y.length) :
    (List.zipWith max x y).getD i 0 = max (x.getD i 0) (y.getD i 0) := by
  rw [List.getD_eq_getElem _ _ (by simp; omega), List.getElem_zipWith,
    List.getD_eq_getElem _ _ h1, List.getD_eq_getElem _ _ h2]

/-- C45: the result has the size of the arrays (a one-element array being broadcast), each entry
being the larger of the two entries. -/
theorem C45_max_arrays (x y r : List ℚ) (h : maxArrays x y = .ok r) :
    r.length = (if x.length = 1 then y.length else x.length) ∧
    ∀ i, i < r.length → r.getD i 0 = max (Spec.broadcast x i) (Spec.broadcast y i) := by
  unfold maxArrays at h
  unfold Spec.broadcast
  by_cases hx : x.length = 1
  · by_cases hy : y.length = 1
    · simp only [hx, hy, if_true, Except.ok.injEq] at h ⊢
      subst h
      refine ⟨rfl, fun i hi => ?_⟩
      have : i = 0 := by simpa using hi
      subst this; rfl
    · simp only [hx, hy, if_true, if_false, Except.ok.injEq] at h ⊢
      subst h
      refine ⟨by simp, fun i hi => ?_⟩
      simp only [List.length_zipWith, List.length_replicate, min_self] at hi
      rw [getD_zipWith_max _ _ _ (by simpa using hi) hi,
        List.getD_eq_getElem _ _ (by simpa using hi), List.getElem_replicate]
  · by_cases hy : y.length = 1
    · simp only [hx, hy, if_true, if_false, Except.ok.injEq] at h ⊢
      subst h
      refine ⟨by simp, fun i hi => ?_⟩
      simp only [List.length_zipWith, List.length_replicate, min_self] at hi
      rw [getD_zipWith_max _ _ _ hi (by simpa using hi),
        List.getD_eq_getElem (List.replicate _ _) _ (by simpa using hi), List.getElem_replicate]
    · by_cases hl : x.length = y.length
      · simp only [hx, hy, hl, ne_eq, not_true_eq_false, if_false, Except.ok.injEq] at h ⊢
        subst h
        refine ⟨by simp [hl], fun i hi => ?_⟩
        simp only [List.length_zipWith] at hi
        rw [getD_zipWith_max _ _ _ (by omega) (by omega)]
      · simp [hx, hy, hl] at h

/-- C45: the call raises (a `ValueError`) exactly when the sizes differ and neither is one. -/
theorem C45_incompatible (x y : List ℚ) :
    (maxArrays x y = .error .valueError ↔ x.length ≠ y.length ∧ x.length ≠ 1 ∧ y.length ≠ 1) ∧
    ((∃ r, maxArrays x y = .ok r) ↔ x.length = y.length ∨ x.length = 1 ∨ y.length = 1) := by
  unfold maxArrays
  by_cases hx : x.length = 1 <;> by_cases hy : y.length = 1 <;>
    by_cases hl : x.length = y.length <;> simp [hx, hy, hl]

example : maxArrays [1, 4, 5] [4, 3, 5] = .ok [4, 4, 5] ∧ maxArrays [2] [1, 3] = .ok [2, 3] ∧
    maxArrays [1, 2, 3] [1, 2] = .error .valueError := by decide +kernel

end Bella
