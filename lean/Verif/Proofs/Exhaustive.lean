import Verif.Props.ThickToThin
import Verif.Spec.StripRepair
/-
Lemmas for the exhaustiveness of the strip repairs: balance one by one, layouts reached by a plan, and beam searches
without effective node limits.
-/
namespace Bella

/-! ### Balance one by one -/

/-- The queue after a sequence of plies. -/
def queueAfter (as : List Int) : List Int := as.foldl (nextQueue true) []

theorem queueAfter_snoc (as : List Int) (a : Int) : queueAfter (as ++ [a]) = nextQueue true (queueAfter as) a := by
  unfold queueAfter
  rw [List.foldl_append]
  rfl

theorem queueAfter_straight {a : Int} (h : a = 0 ∨ a = 90) (t : List Int) : queueAfter (a :: t) = queueAfter t := by
  unfold queueAfter
  rw [List.foldl_cons]
  congr 1
  unfold nextQueue
  rw [if_pos rfl, if_neg (by simp), if_neg (by omega)]

theorem queueAfter_angled {a : Int} (h : ¬ (a = 0 ∨ a = 90)) : queueAfter [a] = [a] := by
  unfold queueAfter
  simp only [List.foldl_cons, List.foldl_nil]
  unfold nextQueue
  rw [if_pos rfl, if_neg (by simp), if_pos (by omega)]

theorem queueAfter_pair {a : Int} (h : ¬ (a = 0 ∨ a = 90)) (b : Int) (t : List Int) :
    queueAfter (a :: b :: t) = queueAfter t := by
  have h1 := queueAfter_angled h
  unfold queueAfter at h1 ⊢
  simp only [List.foldl_cons, List.foldl_nil] at h1 ⊢
  rw [h1]
  congr 1

theorem oneByOne_straight {a : Int} (h : a = 0 ∨ a = 90) (t : List Int) : Spec.OneByOne (a :: t) ↔ Spec.OneByOne t := by
  cases t with
  | nil => simp [Spec.OneByOne]
  | cons b t => rw [Spec.OneByOne, if_pos h]

theorem oneByOne_pair {a : Int} (h : ¬ (a = 0 ∨ a = 90)) (b : Int) (t : List Int) :
    Spec.OneByOne (a :: b :: t) ↔ b = -a ∧ Spec.OneByOne t := by
  rw [Spec.OneByOne, if_neg h]

theorem oneByOne_snoc (as : List Int) (a : Int) :
    Spec.OneByOne (as ++ [a]) ↔ Spec.OneByOne as ∧ balanceAllows true (queueAfter as) a = true := by
  induction h : as.length using Nat.strong_induction_on generalizing as with
  | _ n ih =>
    cases as with
    | nil => simp [Spec.OneByOne, queueAfter, balanceAllows]
    | cons b t =>
      by_cases hb : b = 0 ∨ b = 90
      · rw [List.cons_append, oneByOne_straight hb, oneByOne_straight hb, queueAfter_straight hb]
        exact ih t.length (by rw [← h]; simp) t rfl
      · cases t with
        | nil =>
          rw [queueAfter_angled hb]
          change Spec.OneByOne (b :: a :: []) ↔ _
          rw [oneByOne_pair hb]
          simp [Spec.OneByOne, balanceAllows]
        | cons c t =>
          rw [List.cons_append, List.cons_append, oneByOne_pair hb, oneByOne_pair hb, queueAfter_pair hb,
            ih t.length (by rw [← h]; simp) t rfl, and_assoc]

theorem oneByOne_take (as : List Int) (h : Spec.OneByOne as) (k : Nat) : Spec.OneByOne (as.take k) := by
  induction as using List.reverseRecOn generalizing k with
  | nil => simpa using h
  | append_singleton t a ih =>
    by_cases hk : k ≤ t.length
    · rw [List.take_append_of_le_length hk]
      exact ih ((oneByOne_snoc t a).1 h).1 k
    · rw [List.take_of_length_le (by simp; omega)]
      exact h

/-- The queue is determined by the numbers of plies in the directions. -/
theorem queue_counts (as : List Int) (h : Spec.OneByOne as) : (queueAfter as = [] ∨ ∃ b ∈ as, ¬ (b = 0 ∨ b = 90) ∧ queueAfter as = [b]) ∧
    ∀ x : Int, x ≠ 0 → x ≠ 90 → x ≠ -90 → (as.count x : Int) - as.count (-x) =
      ((queueAfter as).count x : Int) - (queueAfter as).count (-x) := by
  induction hn : as.length using Nat.strong_induction_on generalizing as with
  | _ n ih =>
    cases as with
    | nil => exact ⟨Or.inl rfl, fun _ _ _ _ => rfl⟩
    | cons b t =>
      by_cases hb : b = 0 ∨ b = 90
      · rw [queueAfter_straight hb]
        obtain ⟨h1, h2⟩ := ih t.length (by rw [← hn]; simp) t ((oneByOne_straight hb t).1 h) rfl
        refine ⟨?_, fun x x1 x2 x3 => ?_⟩
        · rcases h1 with h1 | ⟨c, c1, c2, c3⟩
          · exact Or.inl h1
          · exact Or.inr ⟨c, List.mem_cons_of_mem _ c1, c2, c3⟩
        · rw [← h2 x x1 x2 x3, List.count_cons_of_ne (by omega), List.count_cons_of_ne (by omega)]
      · cases t with
        | nil =>
          rw [queueAfter_angled hb]
          exact ⟨Or.inr ⟨b, by simp, hb, rfl⟩, fun _ _ _ _ => rfl⟩
        | cons c t =>
          obtain ⟨hc, ht⟩ := (oneByOne_pair hb c t).1 h
          rw [queueAfter_pair hb]
          obtain ⟨h1, h2⟩ := ih t.length (by rw [← hn]; simp) t ht rfl
          refine ⟨?_, fun x x1 x2 x3 => ?_⟩
          · rcases h1 with h1 | ⟨c, c1, c2, c3⟩
            · exact Or.inl h1
            · exact Or.inr ⟨c, by simp [c1], c2, c3⟩
          · rw [← h2 x x1 x2 x3]
            subst hc
            simp only [List.count_cons, beq_iff_eq]
            push_cast
            split_ifs <;> omega

theorem queue_perm {as bs : List Int} (hp : as.Perm bs) (ha : Spec.OneByOne as) (hb : Spec.OneByOne bs)
    (h90 : (-90 : Int) ∉ as) : queueAfter as = queueAfter bs := by
  obtain ⟨a1, a2⟩ := queue_counts as ha
  obtain ⟨b1, b2⟩ := queue_counts bs hb
  have key : ∀ x : Int, x ≠ 0 → x ≠ 90 → x ≠ -90 → ((queueAfter as).count x : Int) - (queueAfter as).count (-x) =
      ((queueAfter bs).count x : Int) - (queueAfter bs).count (-x) := by
    intro x x1 x2 x3
    rw [← a2 x x1 x2 x3, ← b2 x x1 x2 x3, hp.count_eq, hp.count_eq]
  rcases a1 with a1 | ⟨u, u1, u2, u3⟩ <;> rcases b1 with b1 | ⟨v, v1, v2, v3⟩
  · rw [a1, b1]
  · have hv : v ≠ -90 := fun e => h90 (hp.mem_iff.2 (e ▸ v1))
    have := key v (by omega) (by omega) hv
    rw [a1, v3] at this
    simp only [List.count_nil, List.count_singleton, beq_iff_eq] at this
    rw [if_neg (by omega : ¬ v = -v)] at this
    simp at this
  · have hu : u ≠ -90 := fun e => h90 (e ▸ u1)
    have := key u (by omega) (by omega) hu
    rw [b1, u3] at this
    simp only [List.count_nil, List.count_singleton, beq_iff_eq] at this
    rw [if_neg (by omega : ¬ u = -u)] at this
    simp at this
  · have hu : u ≠ -90 := fun e => h90 (e ▸ u1)
    have := key u (by omega) (by omega) hu
    rw [u3, v3] at this ⊢
    simp only [List.count_singleton, beq_iff_eq] at this
    rw [if_neg (by omega : ¬ u = -u)] at this
    by_cases e : v = u
    · rw [e]
    · rw [if_neg e] at this
      split_ifs at this <;> simp at this

/-! ### Searches without node limits -/

theorem pruneTied_all {α : Type} {limit : Nat} {f : α → ℚ} {l : List α} (h : l.length ≤ limit) :
    pruneTied limit f l = l := by
  unfold pruneTied
  rw [if_neg (by omega)]

theorem pruneBest_all {α : Type} {limit : Nat} {f : α → ℚ} {l : List α} (h : l.length ≤ limit) :
    pruneBest limit f l = l := by
  unfold pruneBest
  rw [if_neg (by omega)]

theorem globalStage_all {limit : Nat} {isLast : Bool} {l : List (Cand × Marks)} (h : l.length ≤ limit) :
    globalStage limit isLast l = l := by
  unfold globalStage
  split_ifs
  · rfl
  · rw [pruneTied_all h, pruneBest_all h]

theorem evalAll_length {eval : Cand → Py (Option Marks)} : ∀ {l : List Cand} {evs : List (Cand × Marks)},
    evalAll eval l = .ok evs → evs.length ≤ l.length := by
  intro l
  induction l with
  | nil => intro evs h; cases h; simp
  | cons x t ih =>
    intro evs h
    unfold evalAll at h
    obtain ⟨m, _, h⟩ := bind_ok.1 h
    obtain ⟨rest, hr, h⟩ := bind_ok.1 h
    have := ih hr
    cases m <;> cases h <;> simp <;> omega

theorem evalAll_complete {eval : Cand → Py (Option Marks)} : ∀ {l : List Cand} {evs : List (Cand × Marks)},
    evalAll eval l = .ok evs → ∀ x ∈ l, (∃ r, eval x = .ok r) ∧ ∀ m, eval x = .ok (some m) → (x, m) ∈ evs := by
  intro l
  induction l with
  | nil => intro evs _ x hx; cases hx
  | cons y t ih =>
    intro evs h x hx
    unfold evalAll at h
    obtain ⟨m, hm, h⟩ := bind_ok.1 h
    obtain ⟨rest, hr, h⟩ := bind_ok.1 h
    rcases List.mem_cons.1 hx with rfl | hx
    · refine ⟨⟨m, hm⟩, fun m' hm' => ?_⟩
      rw [hm] at hm'
      cases hm'
      cases h
      simp
    · obtain ⟨h1, h2⟩ := ih hr x hx
      refine ⟨h1, fun m' hm' => ?_⟩
      have := h2 m' hm'
      cases m <;> cases h
      · exact this
      · exact List.mem_cons_of_mem _ this

theorem zip_left_mem {α β : Type} : ∀ {l : List α} {l' : List β}, l.length = l'.length → ∀ {x : α}, x ∈ l →
    ∃ y, (x, y) ∈ l.zip l' := by
  intro l
  induction l with
  | nil => intro l' _ x hx; cases hx
  | cons a t ih =>
    intro l' hl x hx
    cases l' with
    | nil => simp at hl
    | cons b t' =>
      rcases List.mem_cons.1 hx with rfl | hx
      · exact ⟨b, by simp⟩
      · obtain ⟨y, hy⟩ := ih (l' := t') (by simpa using hl) hx
        exact ⟨y, by simp [hy]⟩

/-- Without an effective limit every child that passes the tests is kept. -/
theorem localStage_complete {limit : Nat} {isLast : Bool} {eval : Cand → Py (Option Marks)} {children : List Cand}
    {nodes : List (Cand × Marks)} (h : localStage limit isLast eval children = .ok nodes)
    (hlim : children.length ≤ limit) : nodes.length ≤ children.length ∧
      ∀ x ∈ children, (∃ r, eval x = .ok r) ∧ ∀ m, eval x = .ok (some m) → ∃ m', (x, m') ∈ nodes := by
  unfold localStage at h
  obtain ⟨evs, he, h⟩ := bind_ok.1 h
  rw [pruneTied_all hlim] at he
  have hlen := evalAll_length he
  rw [List.length_reverse] at hlen
  have hz : (((evs.map Prod.fst).reverse).zip (evs.map Prod.snd)).length ≤ limit := by
    rw [List.length_zip]
    simp
    omega
  have e : nodes = ((evs.map Prod.fst).reverse).zip (evs.map Prod.snd) := by
    have h := Except.ok.inj h
    rw [← h]
    split_ifs
    · rfl
    · exact pruneBest_all hz
  subst e
  refine ⟨by rw [List.length_zip]; simp; omega, fun x hx => ?_⟩
  obtain ⟨h1, h2⟩ := evalAll_complete he x (List.mem_reverse.2 hx)
  refine ⟨h1, fun m hm => ?_⟩
  refine zip_left_mem (by simp) ?_
  rw [List.mem_reverse, List.mem_map]
  exact ⟨_, h2 m hm, rfl⟩

theorem mapM_flatten_complete {α β : Type} {f : α → Py (List β)} {l : List α} {ls : List (List β)}
    (h : l.mapM f = .ok ls) : ∀ x ∈ l, ∃ r, f x = .ok r ∧ ∀ y ∈ r, y ∈ ls.flatten := by
  induction l generalizing ls with
  | nil => intro x hx; cases hx
  | cons a t ih =>
    rw [List.mapM_cons] at h
    obtain ⟨r, hr, h⟩ := bind_ok.1 h
    obtain ⟨rs, hrs, h⟩ := bind_ok.1 h
    cases h
    intro x hx
    rcases List.mem_cons.1 hx with rfl | hx
    · exact ⟨r, hr, fun y hy => by simp [hy]⟩
    · obtain ⟨r', h1, h2⟩ := ih hrs x hx
      exact ⟨r', h1, fun y hy => by rw [List.flatten_cons, List.mem_append]; exact Or.inr (h2 y hy)⟩

theorem mapM_flatten_length {α β : Type} {f : α → Py (List β)} {l : List α} {ls : List (List β)} {k : Nat}
    (h : l.mapM f = .ok ls) (hk : ∀ x ∈ l, ∀ r, f x = .ok r → r.length ≤ k) : ls.flatten.length ≤ l.length * k := by
  induction l generalizing ls with
  | nil =>
    rw [List.mapM_nil] at h
    cases h
    simp
  | cons a t ih =>
    rw [List.mapM_cons] at h
    obtain ⟨r, hr, h⟩ := bind_ok.1 h
    obtain ⟨rs, hrs, h⟩ := bind_ok.1 h
    cases h
    have h1 := ih hrs (fun x hx => hk x (List.mem_cons_of_mem _ hx))
    have h2 := hk a List.mem_cons_self r hr
    rw [List.flatten_cons, List.length_append, List.length_cons, Nat.succ_mul]
    omega

theorem dropDuplicates_length (k : Nat) : ∀ l : List (Cand × Marks), (dropDuplicates k l).length ≤ l.length := by
  intro l
  induction l with
  | nil => simp [dropDuplicates]
  | cons x t ih =>
    unfold dropDuplicates
    split_ifs <;> simp <;> omega

/-- A deleted node has a twin among the nodes that are kept. -/
theorem dropDuplicates_twin {k p : Nat} (hp : p < k) : ∀ {l : List (Cand × Marks)} {x : Cand × Marks} {row : Stack},
    x ∈ l → x.1.pdl[p]? = some (some row) → ∃ y ∈ dropDuplicates k l, y.1.pdl[p]? = some (some row) := by
  intro l
  induction l with
  | nil => intro x row hx; cases hx
  | cons z t ih =>
    intro x row hx hr
    unfold dropDuplicates
    split_ifs with hd
    · rcases List.mem_cons.1 hx with rfl | hx
      · obtain ⟨y, hy, hs⟩ := List.any_eq_true.1 hd
        refine ih hy ?_
        unfold samePdl at hs
        have := List.all_eq_true.1 hs p (List.mem_range.2 hp)
        simp only [hr, Option.join_some, beq_iff_eq] at this
        exact Option.join_eq_some_iff.1 this
      · exact ih hx hr
    · rcases List.mem_cons.1 hx with rfl | hx
      · exact ⟨x, List.mem_cons_self, hr⟩
      · obtain ⟨y, hy, hy'⟩ := ih hx hr
        exact ⟨y, List.mem_cons_of_mem _ hy, hy'⟩

end Bella
