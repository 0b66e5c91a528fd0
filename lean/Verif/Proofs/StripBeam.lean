import Verif.Model.ThinToThick
import Verif.Proofs.Monad
/-
Lemmas on the beam searches of the repair of a blending strip: where the nodes come from.
-/
namespace Bella

theorem mem_pick {α : Type} {l : List α} {idx : List Nat} {x : α} (h : x ∈ pick l idx) : x ∈ l := by
  unfold pick at h
  obtain ⟨i, _, hi⟩ := List.mem_filterMap.1 h
  exact List.mem_of_getElem? hi

theorem mem_pruneTied {α : Type} {limit : Nat} {f : α → ℚ} {l : List α} {x : α} (h : x ∈ pruneTied limit f l) :
    x ∈ l := by
  unfold pruneTied at h
  split_ifs at h
  · exact mem_pick h
  · exact h

theorem mem_pruneBest {α : Type} {limit : Nat} {f : α → ℚ} {l : List α} {x : α} (h : x ∈ pruneBest limit f l) :
    x ∈ l := by
  unfold pruneBest at h
  split_ifs at h
  · exact mem_pick h
  · exact h

theorem mem_globalStage {limit : Nat} {isLast : Bool} {l : List (Cand × Marks)} {x : Cand × Marks}
    (h : x ∈ globalStage limit isLast l) : x ∈ l := by
  unfold globalStage at h
  split_ifs at h
  · exact h
  · exact mem_pruneTied (mem_pruneBest h)

theorem evalAll_mem {eval : Cand → Py (Option Marks)} : ∀ {l : List Cand} {evs : List (Cand × Marks)},
    evalAll eval l = .ok evs → ∀ n ∈ evs, n.1 ∈ l ∧ eval n.1 = .ok (some n.2) := by
  intro l
  induction l with
  | nil => intro evs h n hn; cases h; cases hn
  | cons x t ih =>
    intro evs h n hn
    unfold evalAll at h
    obtain ⟨m, hm, h⟩ := bind_ok.1 h
    obtain ⟨rest, hr, h⟩ := bind_ok.1 h
    cases m with
    | none =>
      cases h
      obtain ⟨h1, h2⟩ := ih hr n hn
      exact ⟨List.mem_cons_of_mem _ h1, h2⟩
    | some m =>
      cases h
      rcases List.mem_cons.1 hn with rfl | hn
      · exact ⟨List.mem_cons_self, hm⟩
      · obtain ⟨h1, h2⟩ := ih hr n hn
        exact ⟨List.mem_cons_of_mem _ h1, h2⟩

/-- A node kept by the local stage has the layout of a child that passed the tests, and the values of a child that
passed the tests (not necessarily the same one). -/
theorem localStage_mem {limit : Nat} {isLast : Bool} {eval : Cand → Py (Option Marks)} {children : List Cand}
    {nodes : List (Cand × Marks)} (h : localStage limit isLast eval children = .ok nodes) :
    ∀ n ∈ nodes, (n.1 ∈ children ∧ ∃ m, eval n.1 = .ok (some m)) ∧
      ∃ x ∈ children, eval x = .ok (some n.2) := by
  unfold localStage at h
  obtain ⟨evs, he, h⟩ := bind_ok.1 h
  cases h
  intro n hn
  have hn' : n ∈ ((evs.map Prod.fst).reverse).zip (evs.map Prod.snd) := by
    split_ifs at hn
    · exact hn
    · exact mem_pruneBest hn
  have hz := List.of_mem_zip (a := n.1) (b := n.2) (by simpa using hn')
  have hall := evalAll_mem he
  constructor
  · obtain ⟨e, he1, he2⟩ := List.mem_map.1 (List.mem_reverse.1 hz.1)
    obtain ⟨g1, g2⟩ := hall e he1
    rw [he2] at g1 g2
    exact ⟨mem_pruneTied (List.mem_reverse.1 g1), _, g2⟩
  · obtain ⟨e, he1, he2⟩ := List.mem_map.1 hz.2
    obtain ⟨g1, g2⟩ := hall e he1
    rw [he2] at g2
    exact ⟨e.1, mem_pruneTied (List.mem_reverse.1 g1), g2⟩

theorem mem_dropDuplicates {indRef : Nat} : ∀ {l : List (Cand × Marks)} {x : Cand × Marks},
    x ∈ dropDuplicates indRef l → x ∈ l := by
  intro l
  induction l with
  | nil => intro x h; exact h
  | cons y t ih =>
    intro x h
    unfold dropDuplicates at h
    split_ifs at h
    · exact List.mem_cons_of_mem _ (ih h)
    · rcases List.mem_cons.1 h with rfl | h
      · exact List.mem_cons_self
      · exact List.mem_cons_of_mem _ (ih h)

theorem mapM_flatten_mem {α β : Type} {f : α → Py (List β)} {l : List α} {ls : List (List β)}
    (h : l.mapM f = .ok ls) {y : β} (hy : y ∈ ls.flatten) : ∃ x ∈ l, ∃ r, f x = .ok r ∧ y ∈ r := by
  induction l generalizing ls with
  | nil =>
    rw [List.mapM_nil] at h
    cases h
    cases hy
  | cons a t ih =>
    rw [List.mapM_cons] at h
    obtain ⟨r, hr, h⟩ := bind_ok.1 h
    obtain ⟨rs, hrs, h⟩ := bind_ok.1 h
    cases h
    rw [List.flatten_cons, List.mem_append] at hy
    rcases hy with hy | hy
    · exact ⟨a, List.mem_cons_self, r, hr, hy⟩
    · obtain ⟨x, hx, r', h1, h2⟩ := ih hrs hy
      exact ⟨x, List.mem_cons_of_mem _ hx, r', h1, h2⟩

/-- An invariant of the steps holds for the nodes at the end of the loop. -/
theorem beamLoop_inv {step : Nat → Step → Bool → List (Cand × Marks) → Py (List (Cand × Marks))}
    {I : Nat → Cand × Marks → Prop} : ∀ (steps : List Step) (i : Nat) (nodes res : List (Cand × Marks)),
    (∀ (j : Nat) (s : Step) (b : Bool) (ns ns' : List (Cand × Marks)), steps[j]? = some s →
      (∀ n ∈ ns, I (i + j) n) → step (i + j) s b ns = .ok ns' → ∀ n ∈ ns', I (i + j + 1) n) →
    (∀ n ∈ nodes, I i n) → beamLoop step i steps nodes = .ok res → ∀ n ∈ res, I (i + steps.length) n := by
  intro steps
  induction steps with
  | nil =>
    intro i nodes res _ h0 h
    cases h
    exact h0
  | cons s rest ih =>
    intro i nodes res hs h0 h
    unfold beamLoop at h
    split_ifs at h
    · cases h
      intro n hn
      cases hn
    · obtain ⟨nodes', h1, h⟩ := bind_ok.1 h
      have h2 := hs 0 s rest.isEmpty nodes nodes' rfl h0 h1
      have h3 := ih (i + 1) nodes' res (fun j s' b ns ns' hj hn hst => by
        have := hs (j + 1) s' b ns ns' (by simpa using hj) (by rw [show i + (j + 1) = i + 1 + j by omega]; exact hn)
          (by rw [show i + (j + 1) = i + 1 + j by omega]; exact hst)
        rw [show i + (j + 1) + 1 = i + 1 + j + 1 by omega] at this
        exact this) h2 h
      intro n hn
      have := h3 n hn
      rw [List.length_cons, show i + (rest.length + 1) = i + 1 + rest.length by omega]
      exact this

theorem mapM_get {α β : Type} {f : α → Py β} {xs : List α} {ys : List β} (h : xs.mapM f = .ok ys) :
    ys.length = xs.length ∧ ∀ (j : Nat) (x : α), xs[j]? = some x → ∃ y, f x = .ok y ∧ ys[j]? = some y := by
  have h2 := mapM_inv f _ _ h
  refine ⟨h2.length_eq.symm, fun j x hj => ?_⟩
  obtain ⟨hj1, rfl⟩ := List.getElem?_eq_some_iff.1 hj
  have hj2 : j < ys.length := by rw [← h2.length_eq]; exact hj1
  exact ⟨ys[j], List.Forall₂.get h2 hj1 hj2, List.getElem?_eq_getElem hj2⟩

end Bella
