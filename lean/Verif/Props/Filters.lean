import Verif.Proofs.Diso
import Verif.Model.Filters
import Verif.Spec.Junction
import Verif.Props.Constraints
/-
Properties C12, C13: filters of candidate sub-laminates.
-/
namespace Bella

/-! ### The deletion loops are filters -/

theorem deleteRows_fst {α β : Type} (bad : α → Bool) (i : Nat) (A : List α)
    (B : Option (List β)) (hi : i ≤ A.length) :
    (deleteRows bad i (A, B)).1 = (A.take i).filter (fun r => ! bad r) ++ A.drop i := by
  induction i generalizing A B with
  | zero => simp [deleteRows]
  | succ i ih =>
    have hi' : i < A.length := hi
    have hdrop : A.drop i = A[i] :: A.drop (i + 1) := List.drop_eq_getElem_cons hi'
    have htake : A.take (i + 1) = A.take i ++ [A[i]] := by
      rw [List.take_succ, List.getElem?_eq_getElem hi']; rfl
    unfold deleteRows
    rw [List.getElem?_eq_getElem hi']
    simp only
    have e2 : A.eraseIdx i = A.take i ++ A.drop (i + 1) := List.eraseIdx_eq_take_drop_succ A i
    by_cases hb : bad A[i] = true
    · have hl : i ≤ (A.eraseIdx i).length := by
        rw [List.length_eraseIdx]; split <;> omega
      have ht : (A.take i ++ A.drop (i + 1)).take i = A.take i := by
        rw [List.take_append_of_le_length (by simp; omega), List.take_take, min_self]
      have hd : (A.take i ++ A.drop (i + 1)).drop i = A.drop (i + 1) := by
        rw [List.drop_append_of_le_length (by simp; omega)]
        rw [List.drop_eq_nil_of_le (by simp)]; rfl
      rw [if_pos hb, ih _ _ hl, htake, List.filter_append, e2, ht, hd]
      simp [hb]
    · rw [if_neg hb, ih _ _ (by omega), htake, List.filter_append]
      simp [hb]

theorem deleteRows_snd {α β : Type} (bad : α → Bool) (i : Nat) (A : List α)
    (B : List β) (hi : i ≤ A.length) (hAB : A.length = B.length) :
    (deleteRows bad i (A, some B)).2 =
      some ((((A.zip B).take i).filter (fun p => ! bad p.1)).map Prod.snd ++ B.drop i) := by
  induction i generalizing A B with
  | zero => simp [deleteRows]
  | succ i ih =>
    have hi' : i < A.length := hi
    have hz : i < (A.zip B).length := by simp; omega
    have hdrop : B.drop i = B[i] :: B.drop (i + 1) := List.drop_eq_getElem_cons (by omega)
    have htake : (A.zip B).take (i + 1) = (A.zip B).take i ++ [(A[i], B[i])] := by
      rw [List.take_succ, List.getElem?_eq_getElem hz]; simp
    unfold deleteRows
    rw [List.getElem?_eq_getElem hi']
    simp only
    by_cases hb : bad A[i] = true
    · rw [if_pos hb]
      have hl : (A.eraseIdx i).length = A.length - 1 := by
        rw [List.length_eraseIdx, if_pos hi']
      have hl2 : (B.eraseIdx i).length = B.length - 1 := by
        rw [List.length_eraseIdx, if_pos (by omega)]
      have := ih (A.eraseIdx i) (B.eraseIdx i) (by omega) (by omega)
      simp only [Option.map_some]
      rw [this, htake, List.filter_append]
      have e1 : (List.zip (A.eraseIdx i) (B.eraseIdx i)).take i = (A.zip B).take i := by
        apply List.ext_getElem
        · simp; omega
        · intro j h1 h2
          simp only [List.getElem_take, List.getElem_zip]
          simp only [List.length_take] at h1
          rw [List.getElem_eraseIdx, List.getElem_eraseIdx]
          simp [show j < i by omega]
      have e2 : (B.eraseIdx i).drop i = B.drop (i + 1) := by
        rw [List.eraseIdx_eq_take_drop_succ, List.drop_append_of_le_length (by simp; omega),
          List.drop_eq_nil_of_le (by simp)]; rfl
      rw [e1, e2]
      simp [hb]
    · rw [if_neg hb, ih _ _ (by omega) hAB, htake, List.filter_append, hdrop]
      simp [hb]

/-- The whole loop: the rows that are not bad, in order, and their companions. -/
theorem deleteRows_zip {β : Type} (bad : Stack → Bool) (Z : List (Stack × β)) :
    deleteRows bad (Z.map Prod.fst).length (Z.map Prod.fst, some (Z.map Prod.snd)) =
      ((Z.filter (fun p => ! bad p.1)).map Prod.fst,
        some ((Z.filter (fun p => ! bad p.1)).map Prod.snd)) := by
  have hz : (Z.map Prod.fst).zip (Z.map Prod.snd) = Z := by
    induction Z with
    | nil => rfl
    | cons a t ih => simp [ih]
  apply Prod.ext
  · rw [deleteRows_fst _ _ _ _ (le_refl _), List.take_length, List.drop_length, List.append_nil,
      List.filter_map]
    rfl
  · rw [deleteRows_snd _ _ _ _ (le_refl _) (by simp), hz]
    simp

theorem deleteRows_none {β : Type} (bad : Stack → Bool) (A : List Stack) :
    deleteRows (β := β) bad A.length (A, none) = (A.filter (fun r => ! bad r), none) := by
  have h2 : ∀ i (A : List Stack), (deleteRows (β := β) bad i (A, none)).2 = none := by
    intro i
    induction i with
    | zero => intro A; rfl
    | succ i ih =>
      intro A
      unfold deleteRows
      split
      · split
        · exact ih _
        · exact ih _
      · exact ih _
  apply Prod.ext
  · rw [deleteRows_fst _ _ _ _ (le_refl _)]; simp
  · exact h2 _ _

/-! ### Junction tests -/

theorem replicate_prefix_iff (m : Nat) (a : Int) (l : Stack) :
    List.replicate m a <+: l ↔ m ≤ l.length ∧ ∀ j, j < m → nth l j = a := by
  rw [List.prefix_iff_eq_take]
  constructor
  · intro h
    have hl : m ≤ l.length := by
      have := congrArg List.length h; simp at this; exact this
    refine ⟨hl, fun j hj => ?_⟩
    rw [nth_eq_getElem _ _ (by omega)]
    have : (l.take m)[j]'(by simp; omega) = a := by
      have h2 := List.getElem_replicate (n := m) (a := a) (i := j) (by simpa using hj)
      simp only [List.length_replicate] at h
      simpa [← h] using h2
    simpa using this
  · rintro ⟨hl, h⟩
    apply List.ext_getElem
    · simp; omega
    · intro j h1 h2
      simp only [List.length_replicate] at h1
      have := h j h1
      rw [nth_eq_getElem _ _ (by omega)] at this
      simp [this]

theorem replicate_suffix_iff (m : Nat) (a : Int) (l : Stack) :
    List.replicate m a <:+ l ↔ m ≤ l.length ∧ ∀ j, j < m → nth l.reverse j = a := by
  rw [← List.reverse_prefix, List.reverse_replicate, replicate_prefix_iff]
  simp

theorem junctionHit_iff (before row : Stack) (n k : Nat) (hk : 1 ≤ k) (hkn : k ≤ n)
    (hb : k ≤ before.length) (hr : n + 1 - k ≤ row.length) :
    junctionHit before n k row = true ↔
      ∃ a, List.replicate k a <:+ before ∧ List.replicate (n + 1 - k) a <+: row := by
  unfold junctionHit
  simp only [Bool.and_eq_true, List.all_eq_true, List.mem_range, beq_iff_eq]
  constructor
  · rintro ⟨h1, h2⟩
    exact ⟨nth before.reverse 0, (replicate_suffix_iff _ _ _).2 ⟨hb, h1⟩,
      (replicate_prefix_iff _ _ _).2 ⟨hr, h2⟩⟩
  · rintro ⟨a, h1, h2⟩
    rw [replicate_suffix_iff] at h1
    rw [replicate_prefix_iff] at h2
    have h0 := h1.2 0 (by omega)
    rw [h0]
    exact ⟨h1.2, h2.2⟩

/-- the six blocks of the external filters on a row -/
def junctionKeep (n np : Nat) (before row : Stack) : Bool :=
  [1, 2, 3, 4, 5, 6].all (fun k =>
    ! (decide (k ≤ before.length ∧ k ≤ n ∧ (k = n ∨ n - k < np)) && junctionHit before n k row))

theorem junctionKeep_iff (n : Nat) (before row : Stack) (h6 : n ≤ 6) (hrow : 1 ≤ row.length) :
    junctionKeep n row.length before row = true ↔ Spec.JunctionContig n before row := by
  unfold junctionKeep Spec.JunctionContig
  simp only [List.all_eq_true, Bool.not_eq_true', Bool.and_eq_false_iff, decide_eq_false_iff_not]
  constructor
  · intro h p a hp hpn hc
    have hb : p ≤ before.length := by simpa using hc.1.length_le
    have hr : n + 1 - p ≤ row.length := by simpa using hc.2.length_le
    have hp6 : p ≤ 6 := by omega
    rcases h p (by clear h hc hb hr hpn; interval_cases p <;> simp) with h | h
    · apply h; refine ⟨hb, hpn, ?_⟩; omega
    · have := (junctionHit_iff before row n p hp hpn hb hr).2 ⟨a, hc⟩
      rw [this] at h; exact absurd h (by simp)
  · intro h k hk
    by_cases hh : k ≤ before.length ∧ k ≤ n ∧ (k = n ∨ n - k < row.length)
    · right
      have hk1 : 1 ≤ k := by simp at hk; omega
      rw [Bool.eq_false_iff]
      intro hj
      obtain ⟨a, ha⟩ := (junctionHit_iff before row n k hk1 hh.2.1 hh.1 (by omega)).1 hj
      exact h k a hk1 hh.2.1 ha
    · exact Or.inl hh

theorem foldl_junctionPass {β : Type} (n np : Nat) (before : Stack) (ks : List Nat)
    (Z : List (Stack × β)) :
    ks.foldl (junctionPass n np before) (Z.map Prod.fst, some (Z.map Prod.snd)) =
      ((Z.filter (fun p => ks.all (fun k => ! (decide (k ≤ before.length ∧ k ≤ n ∧
          (k = n ∨ n - k < np)) && junctionHit before n k p.1)))).map Prod.fst,
        some ((Z.filter (fun p => ks.all (fun k => ! (decide (k ≤ before.length ∧ k ≤ n ∧
          (k = n ∨ n - k < np)) && junctionHit before n k p.1)))).map Prod.snd)) := by
  induction ks generalizing Z with
  | nil => simp
  | cons k ks ih =>
    rw [List.foldl_cons]
    by_cases hc : k ≤ before.length ∧ k ≤ n ∧ (k = n ∨ n - k < np)
    · have e : junctionPass n np before (Z.map Prod.fst, some (Z.map Prod.snd)) k =
          ((Z.filter (fun p => ! junctionHit before n k p.1)).map Prod.fst,
            some ((Z.filter (fun p => ! junctionHit before n k p.1)).map Prod.snd)) := by
        unfold junctionPass
        rw [if_pos hc]
        exact deleteRows_zip _ _
      rw [e, ih]
      simp only [List.filter_filter, List.all_cons, hc, and_self, decide_true, Bool.true_and]
      simp only [Bool.and_comm]
    · have e : junctionPass n np before (Z.map Prod.fst, some (Z.map Prod.snd)) k =
          (Z.map Prod.fst, some (Z.map Prod.snd)) := by
        unfold junctionPass
        rw [if_neg hc]
      rw [e, ih]
      simp only [List.all_cons, hc, decide_false, Bool.false_and, Bool.not_false, Bool.true_and]

theorem foldl_junctionPass_none {β : Type} (n np : Nat) (before : Stack) (ks : List Nat)
    (A : List Stack) :
    ks.foldl (junctionPass (β := β) n np before) (A, none) =
      (A.filter (fun p => ks.all (fun k => ! (decide (k ≤ before.length ∧ k ≤ n ∧
          (k = n ∨ n - k < np)) && junctionHit before n k p))), none) := by
  induction ks generalizing A with
  | nil => simp
  | cons k ks ih =>
    rw [List.foldl_cons]
    by_cases hc : k ≤ before.length ∧ k ≤ n ∧ (k = n ∨ n - k < np)
    · have e : junctionPass (β := β) n np before (A, none) k =
          (A.filter (fun p => ! junctionHit before n k p), none) := by
        unfold junctionPass
        rw [if_pos hc]
        exact deleteRows_none _ _
      rw [e, ih]
      simp only [List.filter_filter, List.all_cons, hc, and_self, decide_true, Bool.true_and]
      simp only [Bool.and_comm]
    · have e : junctionPass (β := β) n np before (A, none) k = (A, none) := by
        unfold junctionPass
        rw [if_neg hc]
      rw [e, ih]
      simp only [List.all_cons, hc, decide_false, Bool.false_and, Bool.not_false, Bool.true_and]

theorem contig_keep_iff (n : Nat) (row : Stack) (h2 : 2 ≤ n) (h6 : n ≤ 6) :
    (!(List.range (row.length - n)).any (fun jj => contigHit row n jj)) = true ↔
      Spec.ContigOK n row := by
  rw [← isContig_ok_true row n h2 h6, isContig_eq row n h2 h6, Except.ok.injEq,
    List.not_any_eq_all_not]

theorem diso_keep_iff (d : Int) (row : Stack) (hr : InRange row) :
    (!(List.range (row.length - 1)).any (fun jj => ! isDiso (nth row (jj + 1)) (nth row jj) d)) =
      true ↔ Spec.DisoOK d row := by
  rw [disoOK_iff_nth, List.not_any_eq_all_not, List.all_eq_true]
  simp only [List.mem_range, Bool.not_not]
  constructor
  · intro h i hi
    have := h i (by omega)
    rw [isDiso_iff _ _ _ (hr.nth _) (hr.nth _)] at this
    exact withinAngle_comm this
  · intro h i hi
    rw [isDiso_iff _ _ _ (hr.nth _) (hr.nth _)]
    exact withinAngle_comm (h i (by omega))

open Classical in
/-- C12: `internal_diso_contig` returns exactly the candidates that satisfy the enabled rules, in
the original order, and the companion matrix is filtered to the same rows. -/
theorem C12_internal_diso_contig {β : Type} (c : Cons) (w : Nat) (Z : List (Stack × β))
    (hw : ∀ p ∈ Z, p.1.length = w) (hr : ∀ p ∈ Z, ∀ x ∈ p.1, -90 ≤ x ∧ x ≤ 90)
    (hc : c.contig = true → 2 ≤ c.nContig ∧ c.nContig ≤ 6) :
    let K := Z.filter (fun p => decide ((c.diso = true → Spec.DisoOK c.deltaAngle p.1) ∧
      (c.contig = true → Spec.ContigOK c.nContig p.1)))
    internalDisoContig c w (Z.map Prod.fst) (some (Z.map Prod.snd)) =
        .ok (K.map Prod.fst, some (K.map Prod.snd)) ∧
    internalDisoContig (β := β) c w (Z.map Prod.fst) none = .ok (K.map Prod.fst, none) := by
  intro K
  have hdiso : ∀ p ∈ Z, ((!(List.range (w - 1)).any
      (fun jj => ! isDiso (nth p.1 (jj + 1)) (nth p.1 jj) c.deltaAngle)) = true ↔
      Spec.DisoOK c.deltaAngle p.1) := by
    intro p hp
    rw [← hw p hp]
    exact diso_keep_iff _ _ (hr p hp)
  have step1 : (if c.diso then
      deleteRows (fun r => (List.range (w - 1)).any
        (fun jj => ! isDiso (nth r (jj + 1)) (nth r jj) c.deltaAngle)) (Z.map Prod.fst).length
          (Z.map Prod.fst, some (Z.map Prod.snd))
    else (Z.map Prod.fst, some (Z.map Prod.snd))) =
    ((Z.filter (fun p => decide (c.diso = true → Spec.DisoOK c.deltaAngle p.1))).map Prod.fst,
      some ((Z.filter (fun p => decide (c.diso = true → Spec.DisoOK c.deltaAngle p.1))).map
        Prod.snd)) := by
    by_cases hd : c.diso = true
    · rw [if_pos hd, deleteRows_zip]
      have : Z.filter (fun p => !(List.range (w - 1)).any
          (fun jj => ! isDiso (nth p.1 (jj + 1)) (nth p.1 jj) c.deltaAngle)) =
          Z.filter (fun p => decide (c.diso = true → Spec.DisoOK c.deltaAngle p.1)) := by
        apply List.filter_congr
        intro p hp
        rw [Bool.eq_iff_iff, hdiso p hp]
        simp [hd]
      rw [this]
    · rw [if_neg hd]
      simp [hd]
  have step1' : (if c.diso then
      deleteRows (β := β) (fun r => (List.range (w - 1)).any
        (fun jj => ! isDiso (nth r (jj + 1)) (nth r jj) c.deltaAngle)) (Z.map Prod.fst).length
          (Z.map Prod.fst, none)
    else (Z.map Prod.fst, none)) =
    ((Z.filter (fun p => decide (c.diso = true → Spec.DisoOK c.deltaAngle p.1))).map Prod.fst,
      none) := by
    by_cases hd : c.diso = true
    · rw [if_pos hd, deleteRows_none]
      congr 1
      rw [List.filter_map]
      congr 1
      apply List.filter_congr
      intro p hp
      rw [Bool.eq_iff_iff]
      simp only [Function.comp_apply]
      rw [hdiso p hp]
      simp [hd]
    · rw [if_neg hd]
      simp [hd]
  unfold internalDisoContig
  rw [step1, step1']
  unfold internalContigPass
  by_cases hcg : c.contig = true
  · obtain ⟨h2, h6⟩ := hc hcg
    have hcases : c.nContig = 2 ∨ c.nContig = 3 ∨ c.nContig = 4 ∨ c.nContig = 5 ∨ c.nContig = 6 := by
      omega
    have hkeep : ∀ p ∈ Z, ((!(List.range (w - c.nContig)).any
        (fun jj => contigHit p.1 c.nContig jj)) = true ↔ Spec.ContigOK c.nContig p.1) := by
      intro p hp
      rw [← hw p hp]
      exact contig_keep_iff _ _ h2 h6
    rw [if_pos hcg]
    by_cases hlt : c.nContig < w
    · rw [if_pos hlt, if_pos hcases]
      constructor
      · rw [deleteRows_zip, List.filter_filter]
        have : Z.filter (fun p => (!(List.range (w - c.nContig)).any
            (fun jj => contigHit p.1 c.nContig jj)) &&
            decide (c.diso = true → Spec.DisoOK c.deltaAngle p.1)) = K := by
          apply List.filter_congr
          intro p hp
          rw [Bool.eq_iff_iff, Bool.and_eq_true, hkeep p hp]
          simp only [hcg, forall_const, decide_eq_true_eq]
          exact and_comm
        rw [this]
      · rw [if_pos hcg, if_pos hlt, if_pos hcases, deleteRows_none, List.filter_map, List.filter_filter]
        have : Z.filter (fun p => ((fun r : Stack => !(List.range (w - c.nContig)).any
            (fun jj => contigHit r c.nContig jj)) ∘ Prod.fst) p &&
            decide (c.diso = true → Spec.DisoOK c.deltaAngle p.1)) = K := by
          apply List.filter_congr
          intro p hp
          rw [Bool.eq_iff_iff, Bool.and_eq_true]
          simp only [Function.comp_apply]
          rw [hkeep p hp]
          simp only [hcg, forall_const, decide_eq_true_eq]
          exact and_comm
        rw [this]
    · have : Z.filter (fun p => decide (c.diso = true → Spec.DisoOK c.deltaAngle p.1)) = K := by
        apply List.filter_congr
        intro p hp
        rw [Bool.eq_iff_iff]
        simp only [decide_eq_true_eq]
        have hs : Spec.ContigOK c.nContig p.1 := contigOK_short (by rw [hw p hp]; omega)
        exact ⟨fun h => ⟨h, fun _ => hs⟩, fun h => h.1⟩
      rw [this, if_neg hlt, if_pos hcg, if_neg hlt]
      exact ⟨rfl, rfl⟩
  · rw [if_neg hcg, if_neg hcg]
    have : Z.filter (fun p => decide (c.diso = true → Spec.DisoOK c.deltaAngle p.1)) = K := by
      apply List.filter_congr
      intro p hp
      rw [Bool.eq_iff_iff]
      simp [hcg]
    rw [this]
    exact ⟨rfl, rfl⟩

open Classical in
/-- C12: `internal_contig` likewise, for the contiguity rule alone. -/
theorem C12_internal_contig {β : Type} (c : Cons) (w : Nat) (Z : List (Stack × β))
    (hw : ∀ p ∈ Z, p.1.length = w)
    (hc : c.contig = true → 2 ≤ c.nContig ∧ c.nContig ≤ 6) :
    let K := Z.filter (fun p => decide (c.contig = true → Spec.ContigOK c.nContig p.1))
    internalContig c w (Z.map Prod.fst) (some (Z.map Prod.snd)) =
        .ok (K.map Prod.fst, some (K.map Prod.snd)) := by
  intro K
  unfold internalContig internalContigPass
  by_cases hcg : c.contig = true
  · obtain ⟨h2, h6⟩ := hc hcg
    have hcases : c.nContig = 2 ∨ c.nContig = 3 ∨ c.nContig = 4 ∨ c.nContig = 5 ∨ c.nContig = 6 := by
      omega
    rw [if_pos hcg]
    by_cases hlt : c.nContig < w
    · rw [if_pos hlt, if_pos hcases, deleteRows_zip]
      have : Z.filter (fun p => (!(List.range (w - c.nContig)).any
          (fun jj => contigHit p.1 c.nContig jj))) = K := by
        apply List.filter_congr
        intro p hp
        rw [Bool.eq_iff_iff, ← hw p hp, contig_keep_iff _ _ h2 h6]
        simp only [hcg, forall_const, decide_eq_true_eq]
      rw [this]
    · have : Z = K := by
        symm
        apply List.filter_eq_self.2
        intro p hp
        simp only [decide_eq_true_eq]
        exact fun _ => contigOK_short (by rw [hw p hp]; omega)
      rw [if_neg hlt, ← this]
  · have : Z = K := by
      symm
      apply List.filter_eq_self.2
      intro p hp
      simp [hcg]
    rw [if_neg hcg, ← this]

theorem junctionDiso_iff (d : Int) (before row : Stack) (hb : before.length ≠ 0) (hr : 1 ≤ row.length)
    (h1 : InRange before) (h2 : InRange row) :
    isDiso (nth row 0) (nth before.reverse 0) d = true ↔ Spec.JunctionDiso d before row := by
  rw [isDiso_iff _ _ _ (h2.nth _)
    (InRange.nth (fun x hx => h1 x (List.mem_reverse.1 hx)) _)]
  unfold Spec.JunctionDiso
  constructor
  · intro h a b ha hb'
    have e1 := (replicate_suffix_iff 1 a before).1 (by simpa using ha)
    have e2 := (replicate_prefix_iff 1 b row).1 (by simpa using hb')
    rw [e1.2 0 (by omega), e2.2 0 (by omega)] at h
    exact withinAngle_comm h
  · intro h
    apply withinAngle_comm
    apply h
    · have := (replicate_suffix_iff 1 (nth before.reverse 0) before).2
        ⟨by omega, fun j hj => by rw [show j = 0 by omega]⟩
      simpa using this
    · have := (replicate_prefix_iff 1 (nth row 0) row).2
        ⟨by omega, fun j hj => by rw [show j = 0 by omega]⟩
      simpa using this

open Classical in
/-- C12: `external_diso_contig`, asked about complete rows, returns exactly the candidates whose
junction with the plies designed before is admissible, with aligned companions. -/
theorem C12_external_diso_contig {β : Type} (c : Cons) (w : Nat) (hw1 : 1 ≤ w) (before : Stack)
    (Z : List (Stack × β)) (hw : ∀ p ∈ Z, p.1.length = w)
    (hr : ∀ p ∈ Z, ∀ x ∈ p.1, -90 ≤ x ∧ x ≤ 90) (hb : ∀ x ∈ before, -90 ≤ x ∧ x ≤ 90)
    (hc : c.contig = true → 2 ≤ c.nContig ∧ c.nContig ≤ 6) :
    let K := Z.filter (fun p => decide ((c.diso = true → Spec.JunctionDiso c.deltaAngle before p.1) ∧
      (c.contig = true → Spec.JunctionContig c.nContig before p.1)))
    externalDisoContig c w w before (Z.map Prod.fst) (some (Z.map Prod.snd)) =
        .ok (K.map Prod.fst, some (K.map Prod.snd)) := by
  intro K
  have step1 : (if c.diso = true ∧ before.length ≠ 0 then
      deleteRows (fun r => ! isDiso (nth r 0) (nth before.reverse 0) c.deltaAngle)
        (Z.map Prod.fst).length (Z.map Prod.fst, some (Z.map Prod.snd))
    else (Z.map Prod.fst, some (Z.map Prod.snd))) =
    ((Z.filter (fun p => decide (c.diso = true → Spec.JunctionDiso c.deltaAngle before p.1))).map
        Prod.fst,
      some ((Z.filter (fun p => decide (c.diso = true →
        Spec.JunctionDiso c.deltaAngle before p.1))).map Prod.snd)) := by
    by_cases hd : c.diso = true ∧ before.length ≠ 0
    · rw [if_pos hd, deleteRows_zip]
      have : Z.filter (fun p => !! isDiso (nth p.1 0) (nth before.reverse 0) c.deltaAngle) =
          Z.filter (fun p => decide (c.diso = true →
            Spec.JunctionDiso c.deltaAngle before p.1)) := by
        apply List.filter_congr
        intro p hp
        rw [Bool.eq_iff_iff, Bool.not_not, junctionDiso_iff _ _ _ hd.2 (by rw [hw p hp]; exact hw1)
          hb (hr p hp)]
        simp [hd.1]
      rw [this]
    · rw [if_neg hd]
      have : Z.filter (fun p => decide (c.diso = true →
          Spec.JunctionDiso c.deltaAngle before p.1)) = Z := by
        apply List.filter_eq_self.2
        intro p hp
        simp only [decide_eq_true_eq]
        intro h a b ha
        have : before = [] := by
          by_contra hne
          exact hd ⟨h, by simpa using hne⟩
        rw [this] at ha
        have := ha.length_le
        simp at this
      rw [this]
  unfold externalDisoContig
  rw [if_neg (by omega), step1]
  unfold externalContigPass
  by_cases hcg : c.contig = true
  · obtain ⟨h2, h6⟩ := hc hcg
    have hcases : c.nContig = 2 ∨ c.nContig = 3 ∨ c.nContig = 4 ∨ c.nContig = 5 ∨ c.nContig = 6 := by
      omega
    rw [if_pos hcg]
    by_cases hl : 1 ≤ before.length
    · rw [if_pos hl, if_pos hcases, foldl_junctionPass, List.filter_filter]
      have : Z.filter (fun p => ([1, 2, 3, 4, 5, 6].all (fun k => ! (decide (k ≤ before.length ∧
          k ≤ c.nContig ∧ (k = c.nContig ∨ c.nContig - k < w)) &&
          junctionHit before c.nContig k p.1))) &&
          decide (c.diso = true → Spec.JunctionDiso c.deltaAngle before p.1)) = K := by
        apply List.filter_congr
        intro p hp
        have hk := junctionKeep_iff c.nContig before p.1 h6 (by rw [hw p hp]; exact hw1)
        unfold junctionKeep at hk
        rw [hw p hp] at hk
        rw [Bool.eq_iff_iff, Bool.and_eq_true, hk]
        simp only [hcg, forall_const, decide_eq_true_eq]
        exact and_comm
      rw [this]
    · rw [if_neg hl]
      have : Z.filter (fun p => decide (c.diso = true →
          Spec.JunctionDiso c.deltaAngle before p.1)) = K := by
        apply List.filter_congr
        intro p hp
        rw [Bool.eq_iff_iff]
        simp only [decide_eq_true_eq]
        refine ⟨fun h => ⟨h, fun _ q a hq _ hh => ?_⟩, fun h => h.1⟩
        have := hh.1.length_le
        simp at this
        omega
      rw [this]
  · rw [if_neg hcg]
    have : Z.filter (fun p => decide (c.diso = true →
        Spec.JunctionDiso c.deltaAngle before p.1)) = K := by
      apply List.filter_congr
      intro p hp
      rw [Bool.eq_iff_iff]
      simp [hcg]
    rw [this]

open Classical in
/-- C12: `external_contig` returns exactly the candidates with an admissible junction, when there
is no companion matrix. -/
theorem C12_external_contig {β : Type} (c : Cons) (w : Nat) (hw1 : 1 ≤ w) (before : Stack)
    (A : List Stack) (hw : ∀ p ∈ A, p.length = w)
    (hc : c.contig = true → 2 ≤ c.nContig ∧ c.nContig ≤ 6) (B : Option (List β)) :
    externalContig c w w before A B = .ok (A.filter (fun p => decide (c.contig = true →
      Spec.JunctionContig c.nContig before p)), B) := by
  unfold externalContig
  rw [if_neg (by omega)]
  have : externalContigPass (β := β) c w before (A, none) =
      .ok (A.filter (fun p => decide (c.contig = true →
        Spec.JunctionContig c.nContig before p)), none) := by
    unfold externalContigPass
    by_cases hcg : c.contig = true
    · obtain ⟨h2, h6⟩ := hc hcg
      have hcases : c.nContig = 2 ∨ c.nContig = 3 ∨ c.nContig = 4 ∨ c.nContig = 5 ∨
          c.nContig = 6 := by omega
      rw [if_pos hcg]
      by_cases hl : 1 ≤ before.length
      · rw [if_pos hl, if_pos hcases, foldl_junctionPass_none]
        congr 2
        apply List.filter_congr
        intro p hp
        have hk := junctionKeep_iff c.nContig before p h6 (by rw [hw p hp]; exact hw1)
        unfold junctionKeep at hk
        rw [hw p hp] at hk
        rw [Bool.eq_iff_iff, hk]
        simp only [hcg, forall_const, decide_eq_true_eq]
      · rw [if_neg hl]
        congr 2
        symm
        apply List.filter_eq_self.2
        intro p hp
        simp only [decide_eq_true_eq]
        intro _ q a hq _ hh
        have := hh.1.length_le
        simp at this
        omega
    · rw [if_neg hcg]
      congr 2
      symm
      apply List.filter_eq_self.2
      intro p hp
      simp [hcg]
  rw [this]

/-- C12, violation: `external_contig` returns the companion matrix unfiltered, so its rows are no
longer aligned with the kept candidates. -/
theorem C12_external_contig_misaligned :
    ∃ (a : ConsArgs) (c : Cons), mkConstraints a = .ok c ∧
      externalContig c 2 2 [0] [[0, 0], [45, 90]] (some ["companion of 0,0", "companion of 45,90"])
        = .ok ([[45, 90]], some ["companion of 0,0", "companion of 45,90"]) := by
  obtain ⟨c, hc, ht⟩ := ok_of_test (mkConstraints { contig := true, nContig := 2 })
    (fun c => decide (externalContig c 2 2 [0] [[0, 0], [45, 90]]
      (some ["companion of 0,0", "companion of 45,90"])
        = .ok ([[45, 90]], some ["companion of 0,0", "companion of 45,90"]))) (by decide +kernel)
  simp only [decide_eq_true_eq] at ht
  exact ⟨_, c, hc, ht⟩

/-- non-vacuity of the filters -/
example : ∃ (a : ConsArgs) (c : Cons), mkConstraints a = .ok c ∧
    internalDisoContig c 3 [[0, 0, 0], [0, 45, 90], [0, 90, 0], [45, 45, 0]] (some [1, 2, 3, 4])
      = .ok ([[0, 45, 90], [45, 45, 0]], some [2, 4]) ∧
    externalDisoContig c 2 2 [45, 0, 0] [[0, 45], [45, 0], [90, 45], [-45, -45]] (some [1, 2, 3, 4])
      = .ok ([[45, 0], [-45, -45]], some [2, 4]) := by
  obtain ⟨c, hc, ht⟩ := ok_of_test (mkConstraints { contig := true, nContig := 2, diso := true })
    (fun c => decide (internalDisoContig c 3 [[0, 0, 0], [0, 45, 90], [0, 90, 0], [45, 45, 0]]
      (some [1, 2, 3, 4]) = .ok ([[0, 45, 90], [45, 45, 0]], some [2, 4]) ∧
    externalDisoContig c 2 2 [45, 0, 0] [[0, 45], [45, 0], [90, 45], [-45, -45]] (some [1, 2, 3, 4])
      = .ok ([[45, 0], [-45, -45]], some [2, 4]))) (by decide +kernel)
  simp only [decide_eq_true_eq] at ht
  exact ⟨_, c, hc, ht⟩

/-! ### C13: local tests give globally feasible laminates -/

theorem contigOK_append (n : Nat) (hn : 1 ≤ n) (A B : Stack) :
    Spec.ContigOK n (A ++ B) ↔
      Spec.ContigOK n A ∧ Spec.ContigOK n B ∧ Spec.JunctionContig n A B := by
  constructor
  · intro h
    refine ⟨contigOK_infix h ⟨[], B, by simp⟩, contigOK_infix h ⟨A, [], by simp⟩, ?_⟩
    rintro p a hp hpn ⟨⟨s, hs⟩, ⟨t, ht⟩⟩
    apply h a
    refine ⟨s, t, ?_⟩
    have e : List.replicate (n + 1) a = List.replicate p a ++ List.replicate (n + 1 - p) a := by
      rw [List.replicate_append_replicate]; congr 1; omega
    rw [e, ← hs, ← ht]
    simp only [List.append_assoc]
  · rintro ⟨hA, hB, hJ⟩ a hinf
    obtain ⟨i, hi, h⟩ := (replicate_infix_iff _ _ _).1 hinf
    rw [List.length_append] at hi
    have hl : ∀ j, j < A.length → nth (A ++ B) j = nth A j := by
      intro j hj
      rw [nth_eq_getElem _ _ (by simp; omega), nth_eq_getElem _ _ hj, List.getElem_append_left hj]
    have hr : ∀ j, j < B.length → nth (A ++ B) (A.length + j) = nth B j := by
      intro j hj
      rw [nth_eq_getElem _ _ (by simp; omega), nth_eq_getElem _ _ hj,
        List.getElem_append_right (by omega)]
      simp
    by_cases h1 : i + n < A.length
    · exact hA a ((replicate_infix_iff _ _ _).2 ⟨i, h1, fun j hj => by
        rw [← hl _ (by omega)]; exact h j hj⟩)
    by_cases h2 : A.length ≤ i
    · refine hB a ((replicate_infix_iff _ _ _).2 ⟨i - A.length, by omega, fun j hj => ?_⟩)
      rw [← hr _ (by omega), ← h j hj]
      congr 1; omega
    · refine hJ (A.length - i) a (by omega) (by omega) ⟨?_, ?_⟩
      · rw [replicate_suffix_iff]
        refine ⟨by omega, fun j hj => ?_⟩
        rw [nth_reverse _ _ (by omega), ← hl _ (by omega), ← h (A.length - 1 - j - i) (by omega)]
        congr 1; omega
      · rw [replicate_prefix_iff]
        refine ⟨by omega, fun j hj => ?_⟩
        rw [← hr _ (by omega), ← h (A.length + j - i) (by omega)]
        congr 1; omega

theorem disoOK_append (d : Int) (A B : Stack) :
    Spec.DisoOK d (A ++ B) ↔ Spec.DisoOK d A ∧ Spec.DisoOK d B ∧ Spec.JunctionDiso d A B := by
  constructor
  · intro h
    refine ⟨disoOK_infix h ⟨[], B, by simp⟩, disoOK_infix h ⟨A, [], by simp⟩, ?_⟩
    rintro a b ⟨s, hs⟩ ⟨t, ht⟩
    have h2 := disoOK_infix (tt := [a, b]) h ⟨s, t, by rw [← hs, ← ht]; simp⟩
    exact h2 0 a b rfl rfl
  · rintro ⟨hA, hB, hJ⟩ i a b ha hb
    by_cases h1 : i + 1 < A.length
    · rw [List.getElem?_append_left (by omega)] at ha hb
      exact hA i a b ha hb
    by_cases h2 : A.length ≤ i
    · rw [List.getElem?_append_right (by omega)] at ha hb
      refine hB (i - A.length) a b ha ?_
      rw [← hb]; congr 1; omega
    · have hi : i + 1 = A.length := by omega
      rw [List.getElem?_append_left (by omega)] at ha
      rw [List.getElem?_append_right (by omega), hi, Nat.sub_self] at hb
      apply hJ
      · have hne : A ≠ [] := by rintro rfl; simp at hi
        rw [List.getElem?_eq_getElem (by omega)] at ha
        refine ⟨A.dropLast, ?_⟩
        have := List.dropLast_append_getLast hne
        rw [List.getLast_eq_getElem hne] at this
        have e : A[A.length - 1]'(by omega) = a := by
          simp only [Option.some.injEq] at ha
          rw [← ha]; congr 1; omega
        rw [e] at this; exact this
      · cases B with
        | nil => simp at hb
        | cons x B =>
          simp at hb
          exact ⟨B, by rw [hb]; rfl⟩

/-- the junction only sees the last `n` plies -/
theorem junctionContig_lastK (n : Nat) (hn : 1 ≤ n) (A B : Stack) :
    Spec.JunctionContig n (lastK A n) B ↔ Spec.JunctionContig n A B := by
  have hs : lastK A n <:+ A := by
    unfold lastK
    split
    · exact List.suffix_rfl
    · exact List.drop_suffix _ _
  unfold Spec.JunctionContig
  refine forall₂_congr fun p a => forall₂_congr fun hp hpn => not_congr (and_congr_left fun _ => ?_)
  constructor
  · exact fun h => h.trans hs
  · intro h
    refine List.suffix_of_suffix_length_le h hs ?_
    have := h.length_le
    simp only [List.length_replicate] at this ⊢
    unfold lastK
    rw [if_neg (by omega), List.length_drop]
    omega

theorem single_filter (row : Stack) (f : Stack × Unit → Bool) :
    ((.ok (([(row, ())].filter f).map Prod.fst, some (([(row, ())].filter f).map Prod.snd)) :
      Py (List Stack × Option (List Unit))) = .ok ([row], some [()])) ↔ f (row, ()) = true := by
  cases h : f (row, ()) <;> simp [h]

/-- C13: if the plies designed so far satisfy both rules, and a candidate passes the internal
filter and the external filter run on the last `n_contig` designed plies, then the concatenated
laminate satisfies contiguity and disorientation.  Conversely, a candidate rejected by one of them
would make the laminate infeasible. -/
theorem C13_filters_compose (c : Cons) (w : Nat) (hw1 : 1 ≤ w) (designed row : Stack)
    (hcontig : c.contig = true) (hdiso : c.diso = true)
    (hn : 2 ≤ c.nContig ∧ c.nContig ≤ 6) (hw : row.length = w)
    (hr : ∀ x ∈ row, -90 ≤ x ∧ x ≤ 90) (hb : ∀ x ∈ designed, -90 ≤ x ∧ x ≤ 90)
    (h1 : isContig designed c.nContig = .ok true)
    (h2 : isDisoSs designed c.deltaAngle false none none = .ok true) :
    (internalDisoContig c w [row] (some [()]) = .ok ([row], some [()]) ∧
      externalDisoContig c w w (lastK designed c.nContig) [row] (some [()]) =
        .ok ([row], some [()])) ↔
    (isContig (designed ++ row) c.nContig = .ok true ∧
      isDisoSs (designed ++ row) c.deltaAngle false none none = .ok true) := by
  have hdis : ∀ ss : Stack, InRange ss → (isDisoSs ss c.deltaAngle false none none = .ok true ↔
      Spec.DisoOK c.deltaAngle ss) := by
    intro ss hss
    have := diso_keep_iff c.deltaAngle ss hss
    rw [← this]
    simp [isDisoSs, isDiso_comm]
  have hrb : InRange (designed ++ row) := by
    intro x hx
    rcases List.mem_append.1 hx with h | h
    · exact hb x h
    · exact hr x h
  rw [isContig_ok_true _ _ hn.1 hn.2, hdis _ hrb, contigOK_append _ (by omega), disoOK_append]
  rw [isContig_ok_true _ _ hn.1 hn.2] at h1
  rw [hdis _ hb] at h2
  have hsub : ∀ x ∈ lastK designed c.nContig, -90 ≤ x ∧ x ≤ 90 := by
    intro x hx
    apply hb x
    unfold lastK at hx
    split at hx
    · exact hx
    · exact List.mem_of_mem_drop hx
  have i1 := (C12_internal_diso_contig c w [(row, ())] (by simpa using hw) (by simpa using hr)
    (fun _ => hn)).1
  have i2 := C12_external_diso_contig c w hw1 (lastK designed c.nContig) [(row, ())]
    (by simpa using hw) (by simpa using hr) hsub (fun _ => hn)
  have hjd : Spec.JunctionDiso c.deltaAngle (lastK designed c.nContig) row ↔
      Spec.JunctionDiso c.deltaAngle designed row := by
    have hs : lastK designed c.nContig <:+ designed := by
      unfold lastK
      split
      · exact List.suffix_rfl
      · exact List.drop_suffix _ _
    unfold Spec.JunctionDiso
    refine forall₂_congr fun a b => ?_
    have : [a] <:+ lastK designed c.nContig ↔ [a] <:+ designed := by
      constructor
      · exact fun h => h.trans hs
      · intro h
        refine List.suffix_of_suffix_length_le h hs ?_
        have := h.length_le
        simp only [List.length_singleton] at this ⊢
        unfold lastK
        rw [if_neg (by omega), List.length_drop]
        omega
    rw [this]
  have hjc := junctionContig_lastK c.nContig (by omega) designed row
  have e1 : internalDisoContig c w [row] (some [()]) = .ok ([row], some [()]) ↔
      Spec.DisoOK c.deltaAngle row ∧ Spec.ContigOK c.nContig row := by
    refine Iff.trans (Eq.congr_left i1) ((single_filter row _).trans ?_)
    simp only [hcontig, hdiso, forall_const, decide_eq_true_eq]
  have e2 : externalDisoContig c w w (lastK designed c.nContig) [row] (some [()]) =
        .ok ([row], some [()]) ↔
      Spec.JunctionDiso c.deltaAngle (lastK designed c.nContig) row ∧
        Spec.JunctionContig c.nContig (lastK designed c.nContig) row := by
    refine Iff.trans (Eq.congr_left i2) ((single_filter row _).trans ?_)
    simp only [hcontig, hdiso, forall_const, decide_eq_true_eq]
  rw [e1, e2, hjd, hjc]
  constructor
  · rintro ⟨⟨g1, g2⟩, g3, g4⟩; exact ⟨⟨h1, g2, g4⟩, h2, g1, g3⟩
  · rintro ⟨⟨_, g2, g4⟩, _, g1, g3⟩; exact ⟨⟨g1, g2⟩, g3, g4⟩

/-- non-vacuity of `C13_filters_compose`: a candidate that passes and one that does not. -/
example : ∃ (a : ConsArgs) (c : Cons), mkConstraints a = .ok c ∧ c.contig = true ∧
    c.diso = true ∧ c.nContig = 2 ∧
    isContig [0, 45, 45] c.nContig = .ok true ∧
    isDisoSs [0, 45, 45] c.deltaAngle false none none = .ok true ∧
    (internalDisoContig c 2 [[90, 90]] (some [()]) = .ok ([[90, 90]], some [()]) ∧
      externalDisoContig c 2 2 (lastK [0, 45, 45] c.nContig) [[90, 90]] (some [()]) =
        .ok ([[90, 90]], some [()])) ∧
    externalDisoContig c 2 2 (lastK [0, 45, 45] c.nContig) [[45, 90]] (some [()]) =
        .ok ([], some []) := by
  obtain ⟨c, hc, ht⟩ := ok_of_test (mkConstraints { contig := true, nContig := 2, diso := true })
    (fun c => decide (c.contig = true ∧ c.diso = true ∧ c.nContig = 2 ∧
    isContig [0, 45, 45] c.nContig = .ok true ∧
    isDisoSs [0, 45, 45] c.deltaAngle false none none = .ok true ∧
    (internalDisoContig c 2 [[90, 90]] (some [()]) = .ok ([[90, 90]], some [()]) ∧
      externalDisoContig c 2 2 (lastK [0, 45, 45] c.nContig) [[90, 90]] (some [()]) =
        .ok ([[90, 90]], some [()])) ∧
    externalDisoContig c 2 2 (lastK [0, 45, 45] c.nContig) [[45, 90]] (some [()]) =
        .ok ([], some []))) (by decide +kernel)
  simp only [decide_eq_true_eq] at ht
  exact ⟨_, c, hc, ht⟩

end Bella
