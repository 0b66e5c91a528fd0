import Verif.Proofs.Common
import Verif.Proofs.Monad
import Verif.Model.Divers
/-
Property C43: sorting a list according to the order of another one.
-/
namespace Bella

theorem nth_mono {t : List Int} (ht : t.Pairwise (· ≤ ·)) {i j : Nat} (hij : i ≤ j)
    (hj : j < t.length) : nth t i ≤ nth t j := by
  have hi : i < t.length := by omega
  have e1 : nth t i = t[i] := by rw [nth, List.getD_eq_getElem _ _ hi]
  have e2 : nth t j = t[j] := by rw [nth, List.getD_eq_getElem _ _ hj]
  rw [e1, e2]
  rcases Nat.lt_or_ge i j with h | h
  · exact List.pairwise_iff_getElem.1 ht i j hi hj h
  · have : i = j := by omega
    subst this; exact le_refl _

theorem nth_idxOf {t : List Int} {x : Int} (h : x ∈ t) : nth t (t.idxOf x) = x := by
  have hi := List.idxOf_lt_length_of_mem h
  rw [nth, List.getD_eq_getElem _ _ hi]; exact List.getElem_idxOf hi

theorem idxOf_le_of_nth {t : List Int} {x : Int} {i : Nat} (hi : i < t.length) (h : nth t i = x) :
    t.idxOf x ≤ i := by
  induction t generalizing i with
  | nil => simp at hi
  | cons a t ih =>
    rw [List.idxOf_cons]
    cases i with
    | zero => simp only [nth, List.getD_cons_zero] at h; simp [h]
    | succ i =>
      have := ih (i := i) (by simpa using hi) (by simpa [nth] using h)
      cases hax : (a == x) <;> (simp; try omega)

theorem nth_ne_of_lt_idxOf {t : List Int} {x : Int} {i : Nat} (h : i < t.idxOf x) : nth t i ≠ x := by
  have hi : i < t.length := lt_of_lt_of_le h List.idxOf_le_length
  intro e
  have := idxOf_le_of_nth hi e
  omega

theorem first_spec (t : List Int) (ht : t.Pairwise (· ≤ ·)) (x : Int) (low high : Int)
    (h0 : 0 ≤ low) (h1 : high < t.length)
    (hb : x ∈ t → low ≤ (t.idxOf x : Int) ∧ (t.idxOf x : Int) ≤ high) :
    first t low high x = if x ∈ t then (t.idxOf x : Int) else -1 := by
  induction hm : (high + 1 - low).toNat using Nat.strong_induction_on generalizing low high with
  | _ n ih =>
    unfold first
    by_cases h : high ≥ low
    · rw [dif_pos h]
      dsimp only
      have hmid : low ≤ low + (high - low) / 2 ∧ low + (high - low) / 2 ≤ high := by omega
      generalize hM : low + (high - low) / 2 = mid at hmid
      have hmid0 : 0 ≤ mid := by omega
      obtain ⟨k, rfl⟩ := Int.eq_ofNat_of_zero_le hmid0
      have hk : k < t.length := by omega
      simp only [Int.toNat_natCast]
      by_cases hc : ((k : Int) = 0 ∨ x > nth t ((k : Int) - 1).toNat) ∧ nth t k = x
      · rw [if_pos hc]
        have hx : x ∈ t := by
          rw [← hc.2, nth, List.getD_eq_getElem _ _ hk]; exact List.getElem_mem hk
        rw [if_pos hx]
        have hle : t.idxOf x ≤ k := idxOf_le_of_nth hk hc.2
        have hge : ¬ t.idxOf x < k := by
          intro hlt
          rcases hc.1 with h' | h'
          · omega
          · have e : ((k : Int) - 1).toNat = k - 1 := by omega
            rw [e] at h'
            have := nth_mono ht (i := t.idxOf x) (j := k - 1) (by omega) (by omega)
            rw [nth_idxOf hx] at this
            omega
        omega
      · rw [if_neg hc]
        by_cases hgt : x > nth t k
        · rw [if_pos hgt]
          apply ih _ (by omega) _ _ (by omega) h1 _ rfl
          intro hx
          have := hb hx
          refine ⟨?_, this.2⟩
          by_contra hcon
          have := nth_mono ht (i := t.idxOf x) (j := k) (by omega) hk
          rw [nth_idxOf hx] at this
          omega
        · rw [if_neg hgt]
          apply ih _ (by omega) _ _ h0 (by omega) _ rfl
          intro hx
          have hb' := hb hx
          refine ⟨hb'.1, ?_⟩
          by_contra hcon
          apply hc
          have hlen := List.idxOf_lt_length_of_mem hx
          have h2 : nth t k ≤ nth t (t.idxOf x) := nth_mono ht (by omega) hlen
          rw [nth_idxOf hx] at h2
          refine ⟨?_, by omega⟩
          by_cases hk0 : k = 0
          · left; omega
          · right
            have e : ((k : Int) - 1).toNat = k - 1 := by omega
            rw [e]
            have h3 : nth t (k - 1) ≠ x := nth_ne_of_lt_idxOf (by omega)
            have h4 := nth_mono ht (i := k - 1) (j := k) (by omega) hk
            omega
    · rw [dif_neg h]
      by_cases hx : x ∈ t
      · have := hb hx; omega
      · rw [if_neg hx]

/-- The state has the items `out` written and the positions satisfying `V` marked. -/
structure SortRel (m : Nat) (s : SortState) (V : Nat → Prop) (out : List Int) : Prop where
  len : s.a1.length = m
  ind : s.ind = out.length
  wr : s.a1.take out.length = out
  bound : out.length ≤ m
  vlen : s.visited.length = m
  vis : ∀ j, j < m → (s.visited.getD j false = true ↔ V j)

theorem write_spec (m : Nat) (s : SortState) (V : Nat → Prop) (out : List Int) (v : Int)
    (hr : SortRel m s V out) :
    (out.length < m → ∃ s', s.write v = .ok s' ∧ SortRel m s' V (out ++ [v])) ∧
    (m ≤ out.length → s.write v = .error .indexError) := by
  unfold SortState.write
  have h1 := hr.len
  have h2 := hr.ind
  refine ⟨fun h => ⟨_, by rw [if_pos (by omega)], ?_⟩, fun h => by rw [if_neg (by omega)]⟩
  constructor
  · simp [h1]
  · simp [h2]
  · simp only [List.length_append, List.length_singleton, h2]
    rw [List.take_add_one]
    rw [List.take_set_of_le (by omega), hr.wr]
    rw [List.getElem?_set_self (by omega)]
    rfl
  · simp; omega
  · exact hr.vlen
  · exact hr.vis

theorem count_drop_ne {t : List Int} (ht : t.Pairwise (· ≤ ·)) {x : Int} {j : Nat}
    (hj : j < t.length) (h : x < t[j]) : ∀ i, j ≤ i → nth t i = x → t.length ≤ i := by
  intro i hi e
  by_contra hc
  have := nth_mono ht (i := j) (j := i) hi (by omega)
  rw [e, nth, List.getD_eq_getElem _ _ hj] at this
  omega

theorem copyOcc_spec (t : List Int) (ht : t.Pairwise (· ≤ ·)) (x : Int) (j : Nat)
    (hj : ∀ i, j ≤ i → i < t.length → x ≤ nth t i) (s : SortState) (V : Nat → Prop)
    (out : List Int) (hr : SortRel t.length s V out) :
    (out.length + (t.drop j).count x ≤ t.length →
      ∃ s', copyOcc t x j s = .ok s' ∧
        SortRel t.length s' (fun i => V i ∨ (j ≤ i ∧ nth t i = x))
          (out ++ List.replicate ((t.drop j).count x) x)) ∧
    (t.length < out.length + (t.drop j).count x → copyOcc t x j s = .error .indexError) := by
  induction hm : t.length - j generalizing j s V out with
  | zero =>
    have hl : t.length ≤ j := by omega
    have e : t.drop j = [] := List.drop_eq_nil_of_le hl
    unfold copyOcc
    rw [dif_neg (by omega), e]
    have := hr.bound
    simp only [List.count_nil, List.replicate_zero, List.append_nil, Nat.add_zero]
    refine ⟨fun _ => ⟨s, rfl, ⟨hr.len, hr.ind, hr.wr, hr.bound, hr.vlen, ?_⟩⟩, fun h => by omega⟩
    intro i hi
    rw [hr.vis i hi]
    constructor
    · exact Or.inl
    · rintro (h | h)
      · exact h
      · omega
  | succ n ih =>
    have hl : j < t.length := by omega
    have en : nth t j = t[j] := by rw [nth, List.getD_eq_getElem _ _ hl]
    have ed : t.drop j = t[j] :: t.drop (j + 1) := List.drop_eq_getElem_cons hl
    unfold copyOcc
    rw [dif_pos hl]
    by_cases hx : t[j] = x
    · rw [if_pos hx]
      have ec : (t.drop j).count x = (t.drop (j + 1)).count x + 1 := by
        rw [ed, hx, List.count_cons_self]
      rw [ec]
      have hw := write_spec t.length s V out t[j] hr
      by_cases ho : out.length < t.length
      · obtain ⟨s1, e1, r1⟩ := hw.1 ho
        rw [e1]
        have r2 : SortRel t.length { s1 with visited := s1.visited.set j true }
            (fun i => V i ∨ i = j) (out ++ [t[j]]) := by
          refine ⟨r1.len, r1.ind, r1.wr, r1.bound, by simp [r1.vlen], ?_⟩
          intro i hi
          have hv := r1.vis i hi
          have hvl := r1.vlen
          simp only [List.getD_eq_getElem?_getD] at hv ⊢
          by_cases hij : i = j
          · subst hij
            rw [List.getElem?_set_self (by omega)]
            simp
          · rw [List.getElem?_set_ne (by omega)]
            rw [hv]
            simp [hij]
        have := ih (j + 1) (fun i h1 h2 => hj i (by omega) h2) _ _ _ r2 (by omega)
        simp only [List.length_append, List.length_singleton] at this
        change (_ → ∃ s', copyOcc t x (j + 1) _ = _ ∧ _) ∧ (_ → copyOcc t x (j + 1) _ = _)
        refine ⟨fun h => ?_, fun h => this.2 (by omega)⟩
        obtain ⟨s', e', r'⟩ := this.1 (by omega)
        refine ⟨s', e', r'.len, ?_, ?_, ?_, r'.vlen, ?_⟩
        · rw [r'.ind]; simp
        · have := r'.wr
          rw [hx, List.append_assoc] at this
          exact this
        · simp; omega
        · intro i hi
          rw [r'.vis i hi]
          constructor
          · rintro ((h1 | h1) | h1)
            · exact Or.inl h1
            · subst h1; exact Or.inr ⟨le_refl _, by rw [en, hx]⟩
            · exact Or.inr ⟨by omega, h1.2⟩
          · rintro (h1 | h1)
            · exact Or.inl (Or.inl h1)
            · rcases Nat.lt_or_ge j i with h2 | h2
              · exact Or.inr ⟨h2, h1.2⟩
              · exact Or.inl (Or.inr (by omega))
      · rw [hw.2 (by omega)]
        refine ⟨fun h => by omega, fun h => rfl⟩
    · rw [if_neg hx]
      have hlt : x < t[j] := by
        have := hj j (le_refl _) hl
        rw [en] at this
        omega
      have hno := count_drop_ne ht hl hlt
      have ec : (t.drop j).count x = 0 := by
        rw [List.count_eq_zero]
        intro hm'
        obtain ⟨i, hi, e⟩ := List.getElem_of_mem hm'
        rw [List.getElem_drop] at e
        rw [List.length_drop] at hi
        have := hno (j + i) (by omega) (by rw [nth, List.getD_eq_getElem _ _ (by omega), e])
        omega
      rw [ec]
      have := hr.bound
      simp only [List.replicate_zero, List.append_nil, Nat.add_zero]
      refine ⟨fun _ => ⟨s, rfl, ⟨hr.len, hr.ind, hr.wr, hr.bound, hr.vlen, ?_⟩⟩, fun h => by omega⟩
      intro i hi
      rw [hr.vis i hi]
      constructor
      · exact Or.inl
      · rintro (h | h)
        · exact h
        · have := hno i h.1 h.2; omega

/-- The items copied for the entries `l` of the reference list. -/
def copied (t l : List Int) : List Int := l.flatMap (fun x => List.replicate (t.count x) x)

theorem copyLoop_spec (t : List Int) (ht : t.Pairwise (· ≤ ·)) (l : List Int) (s : SortState)
    (V : Nat → Prop) (out : List Int) (hr : SortRel t.length s V out) :
    (out.length + (copied t l).length ≤ t.length →
      ∃ s', copyLoop t l s = .ok s' ∧
        SortRel t.length s' (fun i => V i ∨ nth t i ∈ l) (out ++ copied t l)) ∧
    (t.length < out.length + (copied t l).length → copyLoop t l s = .error .indexError) := by
  induction l generalizing s V out with
  | nil =>
    have := hr.bound
    simp only [copyLoop, copied, List.flatMap_nil, List.length_nil, List.append_nil,
      List.not_mem_nil, or_false, Nat.add_zero]
    exact ⟨fun _ => ⟨s, rfl, hr⟩, fun h => by omega⟩
  | cons x l ih =>
    have hf := first_spec t ht x 0 ((t.length : Int) - 1) (le_refl _) (by omega) (fun hx => by
      have := List.idxOf_lt_length_of_mem hx; omega)
    have ec : copied t (x :: l) = List.replicate (t.count x) x ++ copied t l := rfl
    rw [copyLoop, hf, ec]
    by_cases hx : x ∈ t
    · have hne : ¬ ((t.idxOf x : Int) = -1) := by omega
      simp only [if_pos hx, if_neg hne, Int.toNat_natCast]
      have hlen := List.idxOf_lt_length_of_mem hx
      have hocc := copyOcc_spec t ht x (t.idxOf x) (fun i h1 h2 => by
        have := nth_mono ht h1 h2
        rwa [nth_idxOf hx] at this) s V out hr
      have ecount : (t.drop (t.idxOf x)).count x = t.count x := by
        conv_rhs => rw [← List.take_append_drop (t.idxOf x) t, List.count_append]
        have h0 : (t.take (t.idxOf x)).count x = 0 := by
          rw [List.count_eq_zero]
          intro hm
          obtain ⟨i, hi, e⟩ := List.getElem_of_mem hm
          rw [List.length_take] at hi
          rw [List.getElem_take] at e
          exact nth_ne_of_lt_idxOf (t := t) (x := x) (i := i) (by omega)
            (by rw [nth, List.getD_eq_getElem _ _ (by omega), e])
        omega
      rw [ecount] at hocc
      simp only [List.length_append, List.length_replicate]
      by_cases hle : out.length + t.count x ≤ t.length
      · obtain ⟨s1, e1, r1⟩ := hocc.1 hle
        rw [e1]
        have r2 : SortRel t.length s1 (fun i => V i ∨ nth t i = x)
            (out ++ List.replicate (t.count x) x) := by
          refine ⟨r1.len, r1.ind, r1.wr, r1.bound, r1.vlen, fun i hi => ?_⟩
          rw [r1.vis i hi]
          constructor
          · rintro (h | h)
            · exact Or.inl h
            · exact Or.inr h.2
          · rintro (h | h)
            · exact Or.inl h
            · exact Or.inr ⟨by
                by_contra hc
                exact nth_ne_of_lt_idxOf (t := t) (x := x) (i := i) (by omega) h, h⟩
        have := ih s1 _ _ r2
        simp only [List.length_append, List.length_replicate] at this
        change (_ → ∃ s', copyLoop t l s1 = _ ∧ _) ∧ (_ → copyLoop t l s1 = _)
        refine ⟨fun h => ?_, fun h => this.2 (by omega)⟩
        obtain ⟨s', e', r'⟩ := this.1 (by omega)
        refine ⟨s', e', ?_⟩
        rw [← List.append_assoc]
        refine ⟨r'.len, r'.ind, r'.wr, r'.bound, r'.vlen, fun i hi => ?_⟩
        rw [r'.vis i hi, List.mem_cons]
        tauto
      · rw [hocc.2 (by omega)]
        exact ⟨fun h => by omega, fun _ => rfl⟩
    · simp only [if_neg hx, if_true]
      have e0 : t.count x = 0 := List.count_eq_zero.2 hx
      rw [e0, List.replicate_zero, List.nil_append]
      have := ih s V out hr
      refine ⟨fun h => ?_, this.2⟩
      obtain ⟨s', e', r'⟩ := this.1 h
      refine ⟨s', e', r'.len, r'.ind, r'.wr, r'.bound, r'.vlen, fun i hi => ?_⟩
      rw [r'.vis i hi, List.mem_cons]
      have : nth t i ≠ x := by
        rintro rfl
        apply hx
        rw [nth, List.getD_eq_getElem _ _ hi]
        exact List.getElem_mem hi
      tauto

theorem copyRest_spec (t : List Int) (V : Nat → Prop) [DecidablePred V] (is : List Nat)
    (his : ∀ i ∈ is, i < t.length) (s : SortState) (out : List Int)
    (hr : SortRel t.length s V out) :
    (out.length + (is.filter (fun i => decide (¬ V i))).length ≤ t.length →
      ∃ s', copyRest t is s = .ok s' ∧
        SortRel t.length s' V (out ++ (is.filter (fun i => decide (¬ V i))).map (nth t))) ∧
    (t.length < out.length + (is.filter (fun i => decide (¬ V i))).length →
      copyRest t is s = .error .indexError) := by
  induction is generalizing s out with
  | nil =>
    have := hr.bound
    simp only [copyRest, List.filter_nil, List.length_nil, List.map_nil, List.append_nil]
    exact ⟨fun _ => ⟨s, rfl, hr⟩, fun h => by omega⟩
  | cons i is ih =>
    have hi := his i (by simp)
    have hv := hr.vis i hi
    rw [copyRest]
    by_cases h : V i
    · have e : s.visited.getD i false = true := hv.2 h
      rw [e, List.filter_cons_of_neg (by simp [h])]
      simp only [Bool.true_eq_false, if_false]
      exact ih (fun j hj => his j (by simp [hj])) s out hr
    · have e : s.visited.getD i false = false := by
        rw [← Bool.not_eq_true]; exact fun h' => h (hv.1 h')
      rw [e, List.filter_cons_of_pos (by simp [h])]
      simp only [if_true, List.length_cons, List.map_cons]
      have hw := write_spec t.length s V out (nth t i) hr
      by_cases ho : out.length < t.length
      · obtain ⟨s1, e1, r1⟩ := hw.1 ho
        rw [e1]
        have := ih (fun j hj => his j (by simp [hj])) s1 _ r1
        simp only [List.length_append, List.length_singleton] at this
        change (_ → ∃ s', copyRest t is s1 = _ ∧ _) ∧ (_ → copyRest t is s1 = _)
        refine ⟨fun h => ?_, fun h => this.2 (by omega)⟩
        obtain ⟨s', e', r'⟩ := this.1 (by omega)
        rw [List.append_assoc] at r'
        exact ⟨s', e', r'⟩
      · rw [hw.2 (by omega)]
        exact ⟨fun h => by omega, fun _ => rfl⟩

/-- The whole output of the function. -/
def sortOut (a1 a2 : List Int) : List Int :=
  copied (a1.insertionSort (· ≤ ·)) a2 ++
    (a1.insertionSort (· ≤ ·)).filter (fun x => decide (x ∉ a2))

theorem count_copied (t l : List Int) (x : Int) : (copied t l).count x = l.count x * t.count x := by
  induction l with
  | nil => simp [copied]
  | cons a l ih =>
    have e : copied t (a :: l) = List.replicate (t.count a) a ++ copied t l := rfl
    rw [e, List.count_append, ih, List.count_replicate, List.count_cons]
    by_cases h : a = x
    · subst h; simp; ring
    · simp [h]

theorem count_sortOut (a1 a2 : List Int) (x : Int) :
    (sortOut a1 a2).count x = if x ∈ a2 then a2.count x * a1.count x else a1.count x := by
  have ep : (a1.insertionSort (· ≤ ·)).count x = a1.count x :=
    (List.perm_insertionSort (· ≤ ·) a1).count_eq x
  rw [sortOut, List.count_append, count_copied, ep]
  by_cases h : x ∈ a2
  · have e0 : List.count x (List.filter (fun x => decide (x ∉ a2))
        (List.insertionSort (fun x1 x2 => x1 ≤ x2) a1)) = 0 := by
      rw [List.count_eq_zero]; simp [h]
    rw [if_pos h, e0, Nat.add_zero]
  · rw [if_neg h, List.count_filter (by simp [h]), List.count_eq_zero.2 h, Nat.zero_mul,
      Nat.zero_add, ep]

theorem subperm_sortOut (a1 a2 : List Int) : a1.Subperm (sortOut a1 a2) := by
  rw [List.subperm_ext_iff]
  intro x _
  rw [count_sortOut]
  split
  · rename_i h
    have : 0 < a2.count x := List.count_pos_iff.2 h
    exact Nat.le_mul_of_pos_left _ this
  · exact le_refl _

theorem map_nth_filter_range (t : List Int) (p : Int → Bool) :
    ((List.range t.length).filter (fun i => p (nth t i))).map (nth t) = t.filter p := by
  have e : (List.range t.length).map (nth t) = t := by
    apply List.ext_getElem
    · simp
    · intro i h1 h2
      simp only [List.getElem_map, List.getElem_range]
      rw [nth, List.getD_eq_getElem _ _ h2]
  conv_rhs => rw [← e]
  rw [List.filter_map]
  rfl

theorem sortAccording_eq (a1 a2 : List Int) :
    sortAccording a1 a2 = if (sortOut a1 a2).length ≤ a1.length then
      .ok (sortOut a1 a2) else .error .indexError := by
  set t := a1.insertionSort (· ≤ ·) with ht
  have hlen : t.length = a1.length := List.length_insertionSort _ _
  have hs : t.Pairwise (· ≤ ·) := List.pairwise_insertionSort _ _
  have hr0 : SortRel t.length ⟨a1, 0, List.replicate a1.length false⟩ (fun _ => False) [] := by
    refine ⟨hlen.symm, rfl, rfl, by simp, by simp [hlen], fun j hj => ?_⟩
    simp only [List.getD_eq_getElem?_getD, List.getElem?_replicate]
    split <;> simp
  have h1 := copyLoop_spec t hs a2 _ _ _ hr0
  have hout : sortOut a1 a2 = copied t a2 ++ t.filter (fun x => decide (x ∉ a2)) := rfl
  have hl : (sortOut a1 a2).length = (copied t a2).length +
      (t.filter (fun x => decide (x ∉ a2))).length := by rw [hout, List.length_append]
  rw [hl]
  simp only [List.nil_append, List.length_nil, Nat.zero_add, false_or] at h1
  unfold sortAccording
  rw [← ht]
  by_cases hc : (copied t a2).length ≤ t.length
  · obtain ⟨s1, e1, r1⟩ := h1.1 hc
    have h2 := copyRest_spec t (fun i => nth t i ∈ a2) (List.range t.length)
      (fun i hi => List.mem_range.1 hi) s1 _ r1
    have em := map_nth_filter_range t (fun x => decide (x ∉ a2))
    have el : ((List.range t.length).filter (fun i => decide (nth t i ∉ a2))).length =
        (t.filter (fun x => decide (x ∉ a2))).length := by rw [← em, List.length_map]
    rw [em, el] at h2
    dsimp only
    rw [e1]
    change (copyRest t (List.range a1.length) s1 >>= fun s => pure s.a1) = _
    rw [← hlen]
    by_cases hc2 : (copied t a2).length + (t.filter (fun x => decide (x ∉ a2))).length ≤ t.length
    · rw [if_pos hc2]
      obtain ⟨s2, e2, r2⟩ := h2.1 hc2
      rw [e2]
      change Except.ok s2.a1 = _
      have := r2.wr
      rw [← hout] at this
      have hsub := (subperm_sortOut a1 a2).length_le
      rw [List.take_of_length_le (by rw [r2.len, hlen]; exact hsub)] at this
      rw [this]
    · rw [if_neg hc2, h2.2 (by omega)]
      rfl
  · rw [if_neg (by omega)]
    dsimp only
    rw [h1.2 (by omega)]
    rfl

/-- The order described by a reference list: items of the list come first, in the order in which
they are listed; the other items come last, in increasing order. -/
def _root_.Spec.AccordingTo (ref : List Int) (x y : Int) : Prop :=
  (x ∈ ref ∧ y ∉ ref) ∨
  (x ∈ ref ∧ y ∈ ref ∧ (x = y ∨ ref.idxOf x < ref.idxOf y)) ∨
  (x ∉ ref ∧ y ∉ ref ∧ x ≤ y)

theorem two_le_count {l : List Int} {x : Int} {i j : Nat} (hij : i < j) (hj : j < l.length)
    (h1 : nth l i = x) (h2 : nth l j = x) : 2 ≤ l.count x := by
  have e : l.count x = (l.take j).count x + (l.drop j).count x := by
    rw [← List.count_append, List.take_append_drop]
  have a1 : 0 < (l.take j).count x := by
    rw [List.count_pos_iff, List.mem_take_iff_getElem]
    refine ⟨i, by omega, ?_⟩
    rw [← h1, nth, List.getD_eq_getElem _ _ (by omega)]
  have a2 : 0 < (l.drop j).count x := by
    have e2 : l[j] = x := by rw [← h2, nth, List.getD_eq_getElem _ _ hj]
    rw [List.count_pos_iff, List.drop_eq_getElem_cons hj, e2]
    simp
  omega

/-- C43: if no item to be sorted is listed twice in the reference list, `sortAccording` re-orders
the list so that it follows the reference order. -/
theorem C43_sort (a1 a2 : List Int) (h : ∀ x ∈ a1, a2.count x ≤ 1) :
    ∃ r, sortAccording a1 a2 = .ok r ∧ r.Perm a1 ∧ r.Pairwise (Spec.AccordingTo a2) := by
  have hperm : (sortOut a1 a2).Perm a1 := by
    rw [List.perm_iff_count]
    intro x
    rw [count_sortOut]
    split
    · rename_i hx
      by_cases hx1 : x ∈ a1
      · have h0 : 0 < a2.count x := List.count_pos_iff.2 hx
        have h1 := h x hx1
        have : a2.count x = 1 := by omega
        rw [this, Nat.one_mul]
      · rw [List.count_eq_zero.2 hx1, Nat.mul_zero]
    · rfl
  refine ⟨sortOut a1 a2, ?_, hperm, ?_⟩
  · rw [sortAccording_eq, if_pos (le_of_eq hperm.length_eq)]
  · set t := a1.insertionSort (· ≤ ·) with ht
    have hmem : ∀ x, x ∈ t ↔ x ∈ a1 := fun x => List.mem_insertionSort _
    rw [sortOut, List.pairwise_append]
    refine ⟨?_, ?_, ?_⟩
    · rw [copied, List.pairwise_flatMap]
      refine ⟨fun a ha => ?_, ?_⟩
      · rw [List.pairwise_replicate]
        exact Or.inr (Or.inr (Or.inl ⟨ha, ha, Or.inl rfl⟩))
      · rw [List.pairwise_iff_getElem]
        intro i j hi hj hij x hx y hy
        obtain ⟨hx0, rfl⟩ := List.mem_replicate.1 hx
        obtain ⟨hy0, rfl⟩ := List.mem_replicate.1 hy
        refine Or.inr (Or.inl ⟨List.getElem_mem hi, List.getElem_mem hj, Or.inr ?_⟩)
        have hx1 : a2[i] ∈ a1 := (hmem _).1 (List.count_pos_iff.1 (Nat.pos_of_ne_zero hx0))
        have hy1 : a2[j] ∈ a1 := (hmem _).1 (List.count_pos_iff.1 (Nat.pos_of_ne_zero hy0))
        have ei : nth a2 i = a2[i] := by rw [nth, List.getD_eq_getElem _ _ hi]
        have ej : nth a2 j = a2[j] := by rw [nth, List.getD_eq_getElem _ _ hj]
        have l1 := idxOf_le_of_nth hi ei
        have l2 : ¬ a2.idxOf a2[j] < j := by
          intro hlt
          have := two_le_count hlt hj (nth_idxOf (List.getElem_mem hj)) ej
          have := h _ hy1
          omega
        omega
    · have hs : t.Pairwise (· ≤ ·) := List.pairwise_insertionSort _ _
      refine List.Pairwise.imp_of_mem ?_ (hs.filter (fun x => decide (x ∉ a2)))
      intro x y hx hy hxy
      have hx := (List.mem_filter.1 hx).2
      have hy := (List.mem_filter.1 hy).2
      simp only [decide_eq_true_eq] at hx hy
      exact Or.inr (Or.inr ⟨hx, hy, hxy⟩)
    · intro x hx y hy
      have hy := (List.mem_filter.1 hy).2
      simp only [decide_eq_true_eq] at hy
      rw [copied, List.mem_flatMap] at hx
      obtain ⟨a, ha, hx⟩ := hx
      obtain ⟨_, rfl⟩ := List.mem_replicate.1 hx
      exact Or.inl ⟨ha, hy⟩

/-- C43: an item to be sorted that is listed twice in the reference list makes the function raise
an `IndexError`. -/
theorem C43_repeated_reference (a1 a2 : List Int) (x : Int) (hx : x ∈ a1) (h : 2 ≤ a2.count x) :
    sortAccording a1 a2 = .error .indexError := by
  rw [sortAccording_eq, if_neg]
  intro hle
  have hsub := subperm_sortOut a1 a2
  have hp : a1.Perm (sortOut a1 a2) := hsub.perm_of_length_le hle
  have e := hp.count_eq x
  rw [count_sortOut, if_pos (List.count_pos_iff.1 (by omega))] at e
  have : 0 < a1.count x := List.count_pos_iff.2 hx
  nlinarith

/-- C43: two results following the order of the reference are equal: the order determines the
output. -/
theorem C43_unique (a1 a2 r1 r2 : List Int)
    (hp1 : r1.Perm a1) (hp2 : r2.Perm a1) (hs1 : r1.Pairwise (Spec.AccordingTo a2))
    (hs2 : r2.Pairwise (Spec.AccordingTo a2)) : r1 = r2 := by
  refine List.Perm.eq_of_pairwise (le := Spec.AccordingTo a2) ?_ hs1 hs2 (hp1.trans hp2.symm)
  intro x y _ _ hxy hyx
  unfold Spec.AccordingTo at hxy hyx
  rcases hxy with ⟨h1, h2⟩ | ⟨h1, h2, h3⟩ | ⟨h1, h2, h3⟩ <;>
    rcases hyx with ⟨g1, g2⟩ | ⟨g1, g2, g3⟩ | ⟨g1, g2, g3⟩
  all_goals first
    | exact absurd h1 g2
    | exact absurd g1 h2
    | exact absurd h2 g2
    | omega

/-- the example of sorting.py 77-83 -/
example : ∃ r, sortAccording [2, 1, 2, 5, 7, 1, 9, 3, 6, 8, 8] [2, 1, 8, 3] = .ok r ∧
    r = [2, 2, 1, 1, 8, 8, 3, 5, 6, 7, 9] := by
  obtain ⟨r, h1, _, _⟩ := C43_sort [2, 1, 2, 5, 7, 1, 9, 3, 6, 8, 8] [2, 1, 8, 3] (by decide)
  refine ⟨r, h1, ?_⟩
  rw [sortAccording_eq, if_pos (by decide)] at h1
  have : sortOut [2, 1, 2, 5, 7, 1, 9, 3, 6, 8, 8] [2, 1, 8, 3] =
    [2, 2, 1, 1, 8, 8, 3, 5, 6, 7, 9] := by decide
  rw [this] at h1
  exact (Except.ok.inj h1).symm

end Bella
