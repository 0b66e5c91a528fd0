import Verif.Proofs.Common
import Verif.Model.Blending
/-
Lemmas on the exception monad, indexing and dictionaries.
-/
namespace Bella

theorem mapM_ok {α β : Type} (f : α → Py β) (g : α → β) (xs : List α)
    (h : ∀ x ∈ xs, f x = .ok (g x)) : xs.mapM f = .ok (xs.map g) := by
  induction xs with
  | nil => rfl
  | cons a t ih =>
    rw [List.mapM_cons, h a (by simp), ih (fun x hx => h x (by simp [hx]))]
    rfl

theorem mapM_inv {α β : Type} (f : α → Py β) (xs : List α) (ys : List β)
    (h : xs.mapM f = .ok ys) : List.Forall₂ (fun x y => f x = .ok y) xs ys := by
  induction xs generalizing ys with
  | nil => simp only [List.mapM_nil, pure, Except.pure, Except.ok.injEq] at h; subst h; exact .nil
  | cons a t ih =>
    rw [List.mapM_cons] at h
    cases h1 : f a with
    | error e => rw [h1] at h; cases h
    | ok b =>
      rw [h1] at h
      cases h2 : t.mapM f with
      | error e => rw [h2] at h; cases h
      | ok bs =>
        rw [h2] at h
        cases h
        exact .cons h1 (ih _ h2)

theorem mapM_exists {α β : Type} (f : α → Py β) (xs : List α)
    (h : ∀ x ∈ xs, ∃ y, f x = .ok y) : ∃ ys, xs.mapM f = .ok ys := by
  induction xs with
  | nil => exact ⟨[], rfl⟩
  | cons a t ih =>
    obtain ⟨b, hb⟩ := h a (by simp)
    obtain ⟨bs, hbs⟩ := ih (fun x hx => h x (by simp [hx]))
    exact ⟨b :: bs, by rw [List.mapM_cons, hb, hbs]; rfl⟩

theorem mapM_range {β : Type} (f : Nat → Py β) (n : Nat) (h : ∀ i, i < n → ∃ y, f i = .ok y) :
    ∃ ys, (List.range n).mapM f = .ok ys ∧ ys.length = n ∧
      ∀ i, i < n → ∃ y, ys[i]? = some y ∧ f i = .ok y := by
  obtain ⟨ys, hys⟩ := mapM_exists f (List.range n) (fun i hi => h i (List.mem_range.1 hi))
  have h2 := mapM_inv f _ _ hys
  have hl : ys.length = n := by rw [← h2.length_eq]; simp
  refine ⟨ys, hys, hl, fun i hi => ⟨ys[i], List.getElem?_eq_getElem (by omega), ?_⟩⟩
  have := List.Forall₂.get h2 (i := i) (by simpa using hi) (by omega)
  simpa using this

theorem pyGet_ok {α : Type} {l : List α} {i : Nat} (h : i < l.length) :
    pyGet l i = .ok l[i] := by
  simp [pyGet, h]

theorem pyGet_eq_ok {α : Type} {l : List α} {i : Nat} {a : α} :
    pyGet l i = .ok a ↔ l[i]? = some a := by
  unfold pyGet
  split <;> simp_all

theorem dictGet_eq_ok {κ α : Type} [BEq κ] {d : List (κ × α)} {k : κ} {a : α} :
    dictGet d k = .ok a ↔ d.lookup k = some a := by
  unfold dictGet
  cases h : d.lookup k <;> simp

theorem bind_ok {α β : Type} {x : Py α} {f : α → Py β} {b : β} :
    (x >>= f) = .ok b ↔ ∃ a, x = .ok a ∧ f a = .ok b := by
  cases x with
  | error e => constructor
               · intro h; cases h
               · rintro ⟨a, h, _⟩; cases h
  | ok a => constructor
            · intro h; exact ⟨a, rfl, h⟩
            · rintro ⟨a', h, h2⟩; cases h; exact h2

theorem lookup_dictSet {κ α : Type} [BEq κ] [LawfulBEq κ] [DecidableEq κ] (d : List (κ × α)) (k k' : κ) (v : α) :
    (dictSet d k v).lookup k' = if k' = k then some v else d.lookup k' := by
  induction d with
  | nil =>
    simp only [dictSet, List.lookup_cons, List.lookup_nil]
    by_cases h : k' = k
    · simp [h]
    · simp [h, beq_eq_false_iff_ne.2 h]
  | cons p d ih =>
    obtain ⟨k1, v1⟩ := p
    unfold dictSet
    by_cases h1 : k1 = k
    · subst h1
      by_cases h : k' = k1
      · subst h; simp
      · simp [List.lookup_cons, h, beq_eq_false_iff_ne.2 h]
    · rw [if_neg (by simpa using h1)]
      rw [List.lookup_cons, List.lookup_cons, ih]
      by_cases h : k' = k1
      · subst h; simp [h1]
      · simp [beq_eq_false_iff_ne.2 h]

end Bella
