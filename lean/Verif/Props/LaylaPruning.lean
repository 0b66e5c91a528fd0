import Verif.Model.LaylaPruning
import Verif.Props.Pruning
/-
C75: the pruning of LAYLA's beam search (src/LAYLA_V02/pruning.py).
-/
namespace Bella

theorem lastK_length_pos (l : Stack) (k : Nat) (hk : 1 ≤ k) : 0 < (lastK l k).length ↔ 0 < l.length := by
  unfold lastK
  rw [if_neg (by omega), List.length_drop]
  omega

theorem lastK_last (l : Stack) (k : Nat) (hk : 1 ≤ k) (hl : 0 < l.length) :
    nth (lastK l k) ((lastK l k).length - 1) = nth l (l.length - 1) := by
  unfold lastK nth
  rw [if_neg (by omega), List.length_drop, List.getD_eq_getElem?_getD, List.getD_eq_getElem?_getD,
    List.getElem?_drop]
  congr 2
  omega

theorem laylaSimpBot_eq (c : Cons) (s : Stack) (hn : 1 ≤ c.nContig) (h : c.contig = true ∨ c.diso = true) :
    laylaSimpBot c s = lastK s c.nContig := by
  unfold laylaSimpBot
  rw [if_pos h]
  split
  · rfl
  · unfold lastK
    rw [if_neg (by omega), show s.length - c.nContig = 0 by omega, List.drop_zero]

theorem laylaSimpBot_pos (c : Cons) (s : Stack) (hn : 1 ≤ c.nContig) :
    0 < (laylaSimpBot c s).length ↔ 0 < s.length := by
  by_cases h : c.contig = true ∨ c.diso = true
  · rw [laylaSimpBot_eq c s hn h]; exact lastK_length_pos s _ hn
  · unfold laylaSimpBot; rw [if_neg h]

theorem laylaSimpBot_last (c : Cons) (s : Stack) (hn : 1 ≤ c.nContig) (hs : 0 < s.length) :
    nth (laylaSimpBot c s) ((laylaSimpBot c s).length - 1) = nth s (s.length - 1) := by
  by_cases h : c.contig = true ∨ c.diso = true
  · rw [laylaSimpBot_eq c s hn h]; exact lastK_last s _ hn hs
  · unfold laylaSimpBot; rw [if_neg h]

theorem nth_append_last (s m : Stack) (hm : 0 < m.length) :
    nth (s ++ m) ((s ++ m).length - 1) = nth m (m.length - 1) := by
  unfold nth
  rw [List.length_append, List.getD_append_right _ _ _ _ (by omega)]
  congr 1
  omega

/-- The disorientation of one more ply of a symmetric laminate is checked with the ply before it. -/
theorem laylaDiso_sym (child : List Int) (ssBot mother : Stack) (level n : Nat) (c : Cons)
    (hs : c.sym = true) (hn : 1 ≤ c.nContig) (top : Stack) (level' n' : Nat) :
    laylaDiso child (laylaSimpBot c ssBot) mother [] [] level n c =
      pruneDiso child (ssBot ++ mother) top level' n' c := by
  rw [pruneDiso_sym _ _ _ _ _ _ hs]
  unfold laylaDiso
  by_cases hd : c.diso = true
  · rw [if_pos hd]
    simp only [hs, true_or, if_true, reduceCtorEq, Bool.true_eq_false, false_and, if_false]
    congr 1
    by_cases hm : 0 < mother.length
    · rw [if_neg (by omega), if_pos hm]
      apply List.filter_congr
      intro a _
      rw [Bool.eq_iff_iff, decide_eq_true_eq, nth_append_last _ _ hm]
      have : 0 < (ssBot ++ mother).length := by rw [List.length_append]; omega
      exact ⟨fun h _ _ => h, fun h => h hd this⟩
    · have hm0 : mother = [] := by simpa using hm
      subst hm0
      rw [List.append_nil]
      by_cases hb : 0 < ssBot.length
      · rw [if_pos ⟨(laylaSimpBot_pos c ssBot hn).2 hb, rfl⟩]
        apply List.filter_congr
        intro a _
        rw [Bool.eq_iff_iff, decide_eq_true_eq, laylaSimpBot_last c _ hn hb]
        simp [hd, hb]
      · rw [if_neg (fun h => hb ((laylaSimpBot_pos c ssBot hn).1 h.1)), if_neg (by simp)]
        symm
        rw [List.filter_eq_self]
        intro a _
        simp [hb]
  · rw [if_neg hd]
    congr 1
    symm
    rw [List.filter_eq_self]
    intro a _
    simp [hd]

/-- Contiguity at the junction only depends on the last `n` plies, wherever a longer stack is cut. -/
theorem junctionContig_suffix (n : Nat) (hn : 1 ≤ n) (A A' B : Stack) (hs : A' <:+ A)
    (hl : n ≤ A'.length ∨ A' = A) : Spec.JunctionContig n A' B ↔ Spec.JunctionContig n A B := by
  rcases hl with hl | rfl
  · rw [← junctionContig_lastK n hn A B, ← junctionContig_lastK n hn A' B]
    have : lastK A n = lastK A' n := by
      obtain ⟨t, rfl⟩ := hs
      unfold lastK
      rw [if_neg (by omega), if_neg (by omega), List.length_append, List.drop_append,
        List.drop_eq_nil_of_le (by omega), List.nil_append]
      congr 1
      omega
    rw [this]
  · rfl

theorem laylaSimp_suffix (c : Cons) (ssBot mother : Stack) (hn : 1 ≤ c.nContig) (hc : c.contig = true) :
    (laylaSimpBot c ssBot ++ mother <:+ ssBot ++ mother) ∧
    (c.nContig ≤ (laylaSimpBot c ssBot ++ mother).length ∨
      laylaSimpBot c ssBot ++ mother = ssBot ++ mother) := by
  rw [laylaSimpBot_eq c ssBot hn (Or.inl hc)]
  unfold lastK
  rw [if_neg (by omega)]
  constructor
  · refine ⟨ssBot.take (ssBot.length - c.nContig), ?_⟩
    rw [← List.append_assoc, List.take_append_drop]
  · by_cases h : c.nContig ≤ ssBot.length
    · left; simp only [List.length_append, List.length_drop]; omega
    · right; rw [show ssBot.length - c.nContig = 0 by omega, List.drop_zero]

open Classical in
/-- The shortened plies are enough: before the last ply, the contiguity check is that of all the plies. -/
theorem laylaContig_inner (child : List Int) (ssBot mother : Stack) (level n : Nat) (c : Cons)
    (hs : c.sym = true) (hcg : c.contig = true) (h2 : 2 ≤ c.nContig) (h6 : c.nContig ≤ 6)
    (hlev : level ≠ n / 2 + n % 2 - 1) (hm : Bool) :
    laylaContig child (laylaSimpBot c ssBot) mother level n c =
      pruneContig child (ssBot ++ mother) level (n / 2 + n % 2) c hm := by
  unfold laylaContig pruneContig
  rw [if_pos (Or.inl ⟨hs, hlev⟩), if_pos hlev, if_pos (Or.inl hs)]
  congr 1
  funext a
  rw [C12_external_contig (β := Unit) c 1 (by omega) _ [[a]] (by simp) (fun _ => ⟨h2, h6⟩),
    C12_external_contig (β := Unit) c 1 (by omega) _ [[a]] (by simp) (fun _ => ⟨h2, h6⟩)]
  obtain ⟨h1, h3⟩ := laylaSimp_suffix c ssBot mother (by omega) hcg
  have := fun B => junctionContig_suffix c.nContig (by omega) _ _ B h1 h3
  congr 3
  apply List.filter_congr
  intro B _
  rw [Bool.eq_iff_iff, decide_eq_true_eq, decide_eq_true_eq, this]

/-- The plies looked at before the last one, when they are counted properly. -/
theorem laylaBefore_eq (c : Cons) (ssBot mother : Stack) (hn : 1 ≤ c.nContig) (hcg : c.contig = true)
    (hw : c.nContig ≤ mother.length ∨
      (2 * mother.length ≤ c.nContig ∧ c.nContig ≤ ssBot.length + mother.length)) :
    laylaBefore c.nContig (laylaSimpBot c ssBot) mother = tailFrom (ssBot ++ mother) c.nContig := by
  rw [laylaSimpBot_eq c ssBot hn (Or.inl hcg)]
  generalize c.nContig = k at *
  have e : tailFrom (ssBot ++ mother) k = (ssBot ++ mother).drop (ssBot.length + mother.length - k) := by
    unfold tailFrom
    rw [List.length_append, if_pos (by omega)]
  rw [e]
  unfold laylaBefore
  rcases hw with h | ⟨h1, h2⟩
  · have e2 : tailFrom mother k = mother.drop (mother.length - k) := by
      unfold tailFrom; rw [if_pos h]
    rw [e2]
    simp only [List.length_drop]
    rw [if_neg (by omega), List.drop_append (l₁ := ssBot),
      List.drop_eq_nil_of_le (as := ssBot) (by omega), List.nil_append]
    congr 1
    omega
  · have e2 : tailFrom mother k = mother := by
      unfold tailFrom
      by_cases h3 : k ≤ mother.length
      · rw [if_pos h3, show mother.length - k = 0 by omega, List.drop_zero]
      · rw [if_neg h3]
        unfold lastK
        rw [if_neg (by omega), show mother.length - (k - mother.length) = 0 by omega, List.drop_zero]
    rw [e2]
    by_cases h0 : mother.length < k
    · simp only [h0, if_true]
      have e3 : (lastK ssBot k).length = min ssBot.length k := by
        unfold lastK; rw [if_neg (by omega), List.length_drop]; omega
      unfold tailFrom
      rw [e3, if_pos (by omega), List.drop_append, show ssBot.length + mother.length - k - ssBot.length = 0 by omega,
        List.drop_zero]
      congr 1
      unfold lastK
      rw [if_neg (by omega), List.drop_drop]
      congr 1
      omega
    · simp only [h0, if_false]
      rw [List.drop_append, List.drop_eq_nil_of_le (by omega), List.nil_append]
      have : mother.length = 0 := by omega
      omega

/-- One more ply of a symmetric laminate: LAYLA's pruning, given the plies of the group under design and the
shortened list of the plies before the group, is BELLA's pruning given all the plies. -/
theorem layla_eq_pruning (child : List Int) (ssBot mother top : Stack) (n : Nat) (c : Cons) (rule : Int)
    (hs : c.sym = true) (hn : 1 ≤ c.nContig) (hc : c.contig = true → 2 ≤ c.nContig ∧ c.nContig ≤ 6)
    (hne : child ≠ [])
    (h1 : c.damTol = true → rule = 2 ∨ rule = 3 → (ssBot ++ mother).length = 1 → mother ≠ [])
    (hw : c.contig = true → (ssBot ++ mother).length = n / 2 + n % 2 - 1 → c.nContig ≤ mother.length ∨
      (2 * mother.length ≤ c.nContig ∧ c.nContig ≤ ssBot.length + mother.length)) :
    laylaPruning child (laylaSimpBot c ssBot) mother [] [] (ssBot ++ mother).length n c rule =
      pruning child (ssBot ++ mother) top (ssBot ++ mother).length (n / 2 + n % 2) c rule (n % 2 == 1) := by
  have hr : ∀ ch : List Int, laylaRules ch (laylaSimpBot c ssBot) mother [] [] (ssBot ++ mother).length n c =
      pruneRules ch (ssBot ++ mother) top (ssBot ++ mother).length (n / 2 + n % 2) c (n % 2 == 1) := by
    intro ch
    unfold laylaRules pruneRules
    rw [laylaDiso_sym ch ssBot mother _ n c hs hn top (ssBot ++ mother).length (n / 2 + n % 2)]
    congr 1
    funext ch1
    by_cases hcg : c.contig = true
    · have hk : laylaContig ch1 (laylaSimpBot c ssBot) mother (ssBot ++ mother).length n c =
          pruneContig ch1 (ssBot ++ mother) (ssBot ++ mother).length (n / 2 + n % 2) c (n % 2 == 1) := by
        by_cases hlev : (ssBot ++ mother).length = n / 2 + n % 2 - 1
        · unfold laylaContig pruneContig
          rw [if_neg (by simp only [hs, hlev]; simp), if_pos hs, if_neg (not_not.2 hlev), if_pos hs]
          rw [laylaBefore_eq c ssBot mother hn hcg (hw hcg hlev)]
          congr 1
          funext a
          rcases Nat.mod_two_eq_zero_or_one n with h | h <;> simp [h]
        · exact laylaContig_inner _ _ _ _ _ _ hs hcg (hc hcg).1 (hc hcg).2 hlev _
      rw [hk]
    · simp only [hcg, Bool.false_eq_true, if_false]
  unfold laylaPruning pruning
  have hch : (if c.sym = true ∧ n % 2 = 1 ∧ (ssBot ++ mother).length = n / 2 then ([0, 90] : List Int) else child) =
      if c.sym = true ∧ (ssBot ++ mother).length = n / 2 + n % 2 - 1 ∧ (n % 2 == 1) = true then [0, 90] else child := by
    rcases Nat.mod_two_eq_zero_or_one n with h | h <;> simp [h, hs]
  simp only [hch]
  have hne' : (if c.sym = true ∧ (ssBot ++ mother).length = n / 2 + n % 2 - 1 ∧ (n % 2 == 1) = true
      then ([0, 90] : List Int) else child) ≠ [] := by
    split
    · simp
    · exact hne
  generalize (if c.sym = true ∧ (ssBot ++ mother).length = n / 2 + n % 2 - 1 ∧ (n % 2 == 1) = true
      then ([0, 90] : List Int) else child) = ch at hne' ⊢
  by_cases hd : c.damTol = true
  · rw [if_pos hd, if_pos hd]
    by_cases h0 : (ssBot ++ mother).length = 0
    · rw [if_pos (Or.inl h0), if_pos (Or.inl h0)]
    · have hz0 : ∀ m : Nat, ¬ ((ssBot ++ mother).length = 0 ∨ (c.sym = false ∧ (ssBot ++ mother).length = m)) := by
        rintro m (h | ⟨h, _⟩)
        · exact h0 h
        · rw [hs] at h; cases h
      have hz1 : ∀ m : Nat, ¬ ((ssBot ++ mother).length = 0 ∨ (¬ c.sym = true ∧ (ssBot ++ mother).length = m)) := by
        rintro m (h | ⟨h, _⟩)
        · exact h0 h
        · exact h hs
      rw [if_neg (hz0 _), if_neg (hz1 _)]
      by_cases hz : (rule = 2 ∨ rule = 3) ∧ (ssBot ++ mother).length = 1
      · rw [if_pos hz, if_pos hz]
        have hmn := h1 hd hz.1 hz.2
        have hmp : 0 < mother.length := List.length_pos_iff.2 hmn
        have hb : ssBot = [] := by
          have := hz.2
          rw [List.length_append] at this
          exact List.length_eq_zero_iff.1 (by omega)
        subst hb
        rw [if_neg (by omega), List.nil_append, pyGet_ok (by omega), nth_eq_getElem _ _ hmp]
        rfl
      · rw [if_neg hz, if_neg hz, if_neg (by simp [hs]), if_neg (by simp [hs]), hr]
  · rw [if_neg hd, if_neg hd, hr]

open Classical in
/-- C75: adding one ply to a symmetric laminate (before the last ply), whatever the rules: `before` are the plies of the previous
groups, `group` those of the group under design.  If they satisfy the rules enforced, the orientations kept are
exactly those for which the extended laminate satisfies them, although only the last plies of `before` are
looked at; under damage tolerance rule 3 with disorientation enforced at less than 90 degrees the second ply must
moreover be opposite to the first one. -/
theorem C75_pruning_all_rules (c : Cons) (rule : Int) (child : List Int) (before group : Stack) (n : Nat)
    (hs : c.sym = true) (hlev : (before ++ group).length + 1 < n / 2 + n % 2) (hne : child ≠ [])
    (hn : 1 ≤ c.nContig) (hc : c.contig = true → 2 ≤ c.nContig ∧ c.nContig ≤ 6)
    (h1 : c.damTol = true → rule = 2 ∨ rule = 3 → (before ++ group).length = 1 → group ≠ [])
    (hin : AnglesInRange (before ++ group)) (hch : AnglesInRange child)
    (hb : FeasiblePart c rule (before ++ group)) :
    laylaPruning child (laylaSimpBot c before) group [] [] (before ++ group).length n c rule =
      .ok (noneIfEmpty (child.filter (fun a => decide (FeasiblePart c rule (before ++ group ++ [a]) ∧
        OppositeSecond c rule (before ++ group) a)))) := by
  rw [layla_eq_pruning child before group [] n c rule hs hn hc hne h1 (fun _ h => by omega)]
  exact C38_pruning_all_rules c rule child (before ++ group) [] _ _ hs hlev hne hc hin hch hb

open Classical in
/-- C75: adding one ply to a symmetric laminate (before the last ply): `before` are the plies of the previous
groups, `group` those of the group under design.  If they satisfy the rules enforced, the orientations kept are
exactly those for which the extended laminate satisfies them, although only the last plies of `before` are
looked at (damage tolerance rule 3: unless disorientation is enforced with less than 90 degrees). -/
theorem C75_pruning_exact (c : Cons) (rule : Int) (child : List Int) (before group : Stack) (n : Nat)
    (hs : c.sym = true) (hlev : (before ++ group).length + 1 < n / 2 + n % 2) (hne : child ≠ [])
    (hn : 1 ≤ c.nContig) (hc : c.contig = true → 2 ≤ c.nContig ∧ c.nContig ≤ 6)
    (hrule : rule = 1 ∨ rule = 2 ∨ (rule = 3 ∧ (c.diso = true → 90 ≤ c.deltaAngle)))
    (h1 : c.damTol = true → rule = 2 ∨ rule = 3 → (before ++ group).length = 1 → group ≠ [])
    (hin : AnglesInRange (before ++ group)) (hch : AnglesInRange child)
    (hb : FeasiblePart c rule (before ++ group)) :
    laylaPruning child (laylaSimpBot c before) group [] [] (before ++ group).length n c rule =
      .ok (noneIfEmpty (child.filter (fun a => decide (FeasiblePart c rule (before ++ group ++ [a]))))) := by
  rw [layla_eq_pruning child before group [] n c rule hs hn hc hne h1 (fun _ h => by omega)]
  exact C38_pruning_exact c rule child (before ++ group) [] _ _ hs hlev hne hc hrule hin hch hb

open Classical in
/-- C75: adding the last ply designed (the middle ply when the ply count is odd, then restricted to 0 and 90
degrees): the orientations kept are exactly those for which the half laminate satisfies the rules and the
complete laminate satisfies contiguity, provided that the group has at least `n_contig` plies before the last
one, or at most half of `n_contig` and there are `n_contig` plies before the last one. -/
theorem C75_pruning_last (c : Cons) (rule : Int) (child : List Int) (before group : Stack) (n : Nat)
    (hs : c.sym = true) (hlev : (before ++ group).length + 1 = n / 2 + n % 2) (hne : child ≠ [])
    (hlen : 2 ≤ (before ++ group).length)
    (hn : 1 ≤ c.nContig) (hc : c.contig = true → 2 ≤ c.nContig ∧ c.nContig ≤ 6)
    (hw : c.contig = true → c.nContig ≤ group.length ∨
      (2 * group.length ≤ c.nContig ∧ c.nContig ≤ before.length + group.length))
    (hin : AnglesInRange (before ++ group)) (hch : AnglesInRange child)
    (hb : FeasiblePart c rule (before ++ group)) :
    laylaPruning child (laylaSimpBot c before) group [] [] (before ++ group).length n c rule =
      .ok (noneIfEmpty ((if n % 2 = 1 then [0, 90] else child).filter (fun a => decide
        (FeasiblePart c rule (before ++ group ++ [a]) ∧
          (c.contig = true → Spec.ContigOK c.nContig
            (Spec.mirrored (n % 2 == 1) (before ++ group ++ [a]))))))) := by
  rw [layla_eq_pruning child before group [] n c rule hs hn hc hne (fun _ _ h => by omega) (fun h _ => hw h)]
  rw [C38_pruning_last c rule child (before ++ group) [] _ (n % 2 == 1) hs hlev hne hlen hc
    (fun h => by rw [List.length_append]; have := hw h; omega) hin hch hb]
  rcases Nat.mod_two_eq_zero_or_one n with h | h <;> simp [h]

theorem noneIfEmpty_some {l r : List Int} (h : noneIfEmpty l = some r) : r = l := by
  unfold noneIfEmpty at h
  split at h
  · cases h
  · exact (Option.some.inj h).symm

/-- C75: a half laminate of a symmetric laminate of `n` plies designed ply by ply, the ply `k` being one of the
orientations kept (`start k` is the first ply of the group of ply `k`), satisfies the rules, and the laminate
obtained by symmetry satisfies symmetry, disorientation, contiguity and damage tolerance. -/
theorem C75_laminate (c : Cons) (rule : Int) (child : List Int) (h : Stack) (n : Nat) (start : Nat → Nat)
    (hs : c.sym = true) (hlen : h.length = n / 2 + n % 2) (h3 : 3 ≤ h.length) (hne : child ≠ [])
    (hn : 1 ≤ c.nContig) (hc : c.contig = true → 2 ≤ c.nContig ∧ c.nContig ≤ 6) (hd0 : 0 ≤ c.deltaAngle)
    (hch : AnglesInRange child) (hst : ∀ k, start k ≤ k)
    (h1 : c.damTol = true → rule = 2 ∨ rule = 3 → start 1 = 0)
    (hw : c.contig = true → c.nContig ≤ (h.length - 1) - start (h.length - 1) ∨
      (2 * ((h.length - 1) - start (h.length - 1)) ≤ c.nContig ∧ c.nContig ≤ h.length - 1))
    (hkept : ∀ k, (hk : k < h.length) → ∃ kept, laylaPruning child (laylaSimpBot c (h.take (start k)))
      ((h.take k).drop (start k)) [] [] k n c rule = .ok (some kept) ∧ h[k] ∈ kept) :
    FeasiblePart c rule h ∧ Spec.Symmetric (Spec.mirrored (n % 2 == 1) h) ∧
    (c.contig = true → Spec.ContigOK c.nContig (Spec.mirrored (n % 2 == 1) h)) ∧
    (c.diso = true → Spec.PairsWithin c.deltaAngle (Spec.mirrored (n % 2 == 1) h)
      (if c.damTol = true ∧ (rule = 2 ∨ rule = 3) then 1 else 0)
      ((Spec.mirrored (n % 2 == 1) h).length - 1 - (if c.damTol = true ∧ (rule = 2 ∨ rule = 3) then 1 else 0))) ∧
    (c.damTol = true → rule = 1 → Spec.DamTol1 (Spec.mirrored (n % 2 == 1) h)) ∧
    (c.damTol = true → rule = 2 → Spec.DamTol2 (Spec.mirrored (n % 2 == 1) h)) ∧
    (c.damTol = true → rule = 3 → Spec.DamTol3 (Spec.mirrored (n % 2 == 1) h)) := by
  classical
  have hsplit : ∀ k, h.take (start k) ++ (h.take k).drop (start k) = h.take k := by
    intro k
    have e : h.take (start k) = (h.take k).take (start k) := by
      rw [List.take_take, Nat.min_eq_left (hst k)]
    rw [e, List.take_append_drop]
  have htl : ∀ k, k < h.length → (h.take k).length = k := by
    intro k hk; rw [List.length_take]; omega
  have htake : ∀ k, (hk : k < h.length) → h.take k ++ [h[k]] = h.take (k + 1) := by
    intro k hk; rw [List.take_add_one, List.getElem?_eq_getElem hk]; rfl
  -- all the plies but the last one
  have hind : ∀ k, k < h.length → FeasiblePart c rule (h.take k) ∧ AnglesInRange (h.take k) := by
    intro k
    induction k with
    | zero =>
      intro _
      refine ⟨?_, by simp [AnglesInRange]⟩
      rw [List.take_zero]
      refine ⟨by simp, by simp, by simp, ?_, ?_⟩
      · intro d _
        rw [pairsWithin_iff_nth]
        intro i _ h2 h3
        simp at h3
      · intro m _
        exact contigOK_short (by simp)
    | succ k ih =>
      intro hk
      obtain ⟨ihf, iha⟩ := ih (by omega)
      obtain ⟨kept, hp, hm⟩ := hkept k (by omega)
      have hl := htl k (by omega)
      have hex := C75_pruning_all_rules c rule child (h.take (start k)) ((h.take k).drop (start k)) n hs
        (by rw [hsplit, hl]; omega) hne hn hc
        (fun hd hr hl1 => by
          rw [hsplit, hl] at hl1
          subst hl1
          rw [h1 hd hr, List.drop_zero]
          intro h0
          rw [h0] at hl
          simp at hl)
        (by rw [hsplit]; exact iha) hch (by rw [hsplit]; exact ihf)
      simp only [hsplit, hl] at hex
      rw [hex] at hp
      have hkeq := noneIfEmpty_some (Except.ok.inj hp)
      rw [hkeq, List.mem_filter, decide_eq_true_eq] at hm
      rw [htake k (by omega)] at hm
      refine ⟨hm.2.1, ?_⟩
      rw [← htake k (by omega)]
      intro x hx
      rw [List.mem_append, List.mem_singleton] at hx
      rcases hx with hx | rfl
      · exact iha x hx
      · exact hch _ hm.1
  -- the last ply
  obtain ⟨hf, ha⟩ := hind (h.length - 1) (by omega)
  obtain ⟨kept, hp, hm⟩ := hkept (h.length - 1) (by omega)
  have hl := htl (h.length - 1) (by omega)
  have hdl : ((h.take (h.length - 1)).drop (start (h.length - 1))).length =
      (h.length - 1) - start (h.length - 1) := by rw [List.length_drop, hl]
  have hsl : (h.take (start (h.length - 1))).length = start (h.length - 1) := by
    rw [List.length_take]; have := hst (h.length - 1); omega
  have hex := C75_pruning_last c rule child (h.take (start (h.length - 1)))
    ((h.take (h.length - 1)).drop (start (h.length - 1))) n hs
    (by rw [hsplit, hl]; omega) hne (by rw [hsplit, hl]; omega) hn hc
    (fun hcg => by
      rw [hdl, hsl]
      have := hst (h.length - 1)
      rcases hw hcg with h | h
      · left; exact h
      · right; omega)
    (by rw [hsplit]; exact ha) hch (by rw [hsplit]; exact hf)
  simp only [hsplit, hl] at hex
  rw [hex] at hp
  have hkeq := noneIfEmpty_some (Except.ok.inj hp)
  rw [hkeq, List.mem_filter, decide_eq_true_eq, htake _ (by omega)] at hm
  have hfull : h.take (h.length - 1 + 1) = h := by
    rw [show h.length - 1 + 1 = h.length by omega, List.take_length]
  rw [hfull] at hm
  obtain ⟨g1, g2, g3⟩ := C38_half_to_full c rule h (n % 2 == 1) hd0 h3 hm.2.1
  exact ⟨hm.2.1, g1, hm.2.2, g2, g3⟩

/-- C75, violation: with a group that has less than `n_contig` but more than half of `n_contig` plies before the
last one, plies are skipped when the window is built.  With a limit of five, twelve equal plies in the middle of a
laminate of 18 plies are accepted, and an orientation that respects all the rules is refused. -/
theorem C75_last_ply_violation : ∃ (a : ConsArgs) (c : Cons), mkConstraints a = .ok c ∧
    c.sym = true ∧ c.contig = true ∧ c.nContig = 5 ∧ c.damTol = false ∧ c.diso = false ∧
    laylaPruning [0, 90] (laylaSimpBot c [90, 90, 90, 90]) [0, 0, 0, 0] [] [] 8 18 c 1 = .ok (some [0, 90]) ∧
    ¬ Spec.ContigOK 5 (Spec.mirrored false ([90, 90, 90, 90, 0, 0, 0, 0] ++ [0])) ∧
    laylaPruning [0, 90] (laylaSimpBot c [0, 0, 0, 0]) [90, 0, 90, 0] [] [] 8 18 c 1 = .ok (some [90]) ∧
    Spec.ContigOK 5 (Spec.mirrored false ([0, 0, 0, 0, 90, 0, 90, 0] ++ [0])) := by
  obtain ⟨c, hc, ht⟩ := ok_of_test (mkConstraints { sym := true, contig := true, nContig := 5 })
    (fun c => decide (c.sym = true ∧ c.contig = true ∧ c.nContig = 5 ∧ c.damTol = false ∧ c.diso = false ∧
      laylaPruning [0, 90] (laylaSimpBot c [90, 90, 90, 90]) [0, 0, 0, 0] [] [] 8 18 c 1 = .ok (some [0, 90]) ∧
      laylaPruning [0, 90] (laylaSimpBot c [0, 0, 0, 0]) [90, 0, 90, 0] [] [] 8 18 c 1 = .ok (some [90])))
    (by decide +kernel)
  simp only [decide_eq_true_eq] at ht
  obtain ⟨g1, g2, g3, g4, g5, g6, g7⟩ := ht
  refine ⟨_, c, hc, g1, g2, g3, g4, g5, g6, fun h => h 0 ?_, g7, ?_⟩
  · exact ⟨[90, 90, 90, 90], [0, 0, 0, 0, 90, 90, 90, 90], rfl⟩
  · rw [contigOK_iff]
    decide +kernel

/-- C75, violation: with damage tolerance rule 2 or 3, a first group of one ply makes the pruning of the second
ply fail. -/
theorem C75_second_ply_violation (c : Cons) (rule : Int) (child : List Int) (first : Int) (n : Nat)
    (hs : c.sym = true) (hd : c.damTol = true) (hr : rule = 2 ∨ rule = 3) (hne : child ≠ []) :
    laylaPruning child (laylaSimpBot c [first]) [] [] [] 1 n c rule = .error .indexError := by
  have hch : (if c.sym = true ∧ n % 2 = 1 ∧ 1 = n / 2 then ([0, 90] : List Int) else child) ≠ [] := by
    split
    · simp
    · exact hne
  unfold laylaPruning
  generalize (if c.sym = true ∧ n % 2 = 1 ∧ 1 = n / 2 then ([0, 90] : List Int) else child) = ch at hch ⊢
  change (if _ then _ else _) = _
  rw [if_pos hd, if_neg (by simp [hs]), if_pos ⟨hr, rfl⟩, if_pos ⟨List.length_pos_iff.2 hch, rfl⟩]

/-- C75, violation: under damage tolerance rule 3 with disorientation enforced at less than 90 degrees, two equal
surface plies, which satisfy all the rules, are discarded: only the opposite ply, which is too far from the first, is
kept. -/
theorem C75_rule3_violation (c : Cons) (child : List Int) (a : Int) (n : Nat) (r : List Int)
    (hs : c.sym = true) (hd : c.damTol = true) (hdi : c.diso = true) (h90 : c.deltaAngle < 90) (h0 : 0 ≤ c.deltaAngle)
    (ha : Spec.PM45 a) (hn : 2 < n / 2 + n % 2) (hne : child ≠ []) (hch : AnglesInRange child)
    (hn1 : 1 ≤ c.nContig) (hc : c.contig = true → 2 ≤ c.nContig ∧ c.nContig ≤ 6)
    (h : laylaPruning child (laylaSimpBot c []) [a] [] [] 1 n c 3 = .ok (some r)) :
    FeasiblePart c 3 [a, a] ∧ Spec.WithinAngle c.deltaAngle a a ∧
    ∀ x ∈ r, x = -a ∧ ¬ Spec.WithinAngle c.deltaAngle a x := by
  classical
  have hr : AnglesInRange [a] := by
    intro x hx
    rw [List.mem_singleton] at hx
    subst hx
    rcases ha with rfl | rfl <;> omega
  have hf : FeasiblePart c 3 [a] := by
    refine ⟨fun _ x hx => ?_, fun _ x y _ hy => by simp at hy, fun _ y hy => by simp at hy, fun d _ => ?_,
      fun m hm => ?_⟩
    · simp at hx; rw [← hx]; exact ha
    · rw [pairsWithin_iff_nth]
      intro i _ h2 h3
      simp at h3
    · refine contigOK_short ?_
      have : c.contig = true ∧ m = c.nContig := by unfold optContig at hm; split at hm <;> simp_all
      simp; omega
  have hcn : c.contig = true → 2 ≤ c.nContig := fun h => (hc h).1
  refine ⟨?_, withinAngle_self h0, ?_⟩
  · have := (feasible_snoc c 3 [a] a hf hcn hr (hr a (by simp))).2
      ⟨fun _ h => by simp at h, fun _ h => by omega, fun _ _ _ => ha, fun _ h => ?_,
        fun hcg => junctionContig_short _ _ _ (by have := hcn hcg; simp; omega)⟩
    · exact this
    · rw [if_pos ⟨hd, Or.inr rfl⟩] at h; simp at h
  · have e := C75_pruning_all_rules c 3 child [] [a] n hs (by simp; omega) hne hn1 hc (fun _ _ _ => by simp)
      (by simpa using hr) hch (by simpa using hf)
    simp only [List.nil_append, List.length_singleton] at e
    rw [e] at h
    have := noneIfEmpty_some (Except.ok.inj h)
    intro x hx
    rw [this, List.mem_filter, decide_eq_true_eq] at hx
    have hxa : x = -a := hx.2.2 hd rfl hdi h90 rfl
    refine ⟨hxa, ?_⟩
    rw [hxa]
    rintro ⟨k, hk⟩
    rw [abs_le] at hk
    rcases ha with rfl | rfl <;> omega

/-- The hypotheses of `C75_rule3_violation` are met: with 0, 45, -45, 90 and 45 degrees between plies. -/
example : ∃ (a : ConsArgs) (c : Cons), mkConstraints a = .ok c ∧ c.sym = true ∧ c.damTol = true ∧ c.diso = true ∧
    c.deltaAngle = 45 ∧ 1 ≤ c.nContig ∧ c.contig = true ∧ c.nContig = 3 ∧
    laylaPruning [0, 45, -45, 90] (laylaSimpBot c []) [45] [] [] 1 12 c 3 = .ok (some [-45]) := by
  obtain ⟨c, hc, ht⟩ := ok_of_test (mkConstraints
      { sym := true, contig := true, nContig := 3, diso := true, damTol := true, deltaAngle := 45, damTolRule := 3 })
    (fun c => decide (c.sym = true ∧ c.damTol = true ∧ c.diso = true ∧
    c.deltaAngle = 45 ∧ 1 ≤ c.nContig ∧ c.contig = true ∧ c.nContig = 3 ∧
      laylaPruning [0, 45, -45, 90] (laylaSimpBot c []) [45] [] [] 1 12 c 3 = .ok (some [-45]))) (by decide +kernel)
  exact ⟨_, c, hc, by simpa only [decide_eq_true_eq] using ht⟩

/-- C75, violation: asymmetric laminates.  When the pruning reaches the ply of highest index, the search fails with
a type error if contiguity is enforced without damage tolerance, whatever the plies already designed. -/
theorem C75_asymmetric_violation (c : Cons) (rule : Int) (child : List Int) (sBot mBot sTop mTop : Stack) (n : Nat)
    (hs : c.sym = false) (hd : c.damTol = false) (hcg : c.contig = true) (hdi : c.diso = false) (hne : child ≠ []) :
    laylaPruning child sBot mBot sTop mTop (n - 1) n c rule = .error .typeError := by
  have hl : child.length ≠ 0 := by simpa using hne
  have e : laylaDiso child sBot mBot sTop mTop (n - 1) n c = .ok child := by simp [laylaDiso, hdi]
  have e2 : laylaContig child sBot mBot (n - 1) n c = .error .typeError := by simp [laylaContig, hs, hl]
  have e3 : laylaPruning child sBot mBot sTop mTop (n - 1) n c rule =
      laylaRules child sBot mBot sTop mTop (n - 1) n c := by simp [laylaPruning, hs, hd]
  rw [e3, laylaRules, e]
  change (if _ then _ else _) = _
  rw [if_neg (by simp [hdi]), if_pos hcg, e2]
  rfl

/-- C75, violation: asymmetric laminates with an even ply count and disorientation: the first ply of the far face
cannot be designed. -/
theorem C75_far_face_violation (c : Cons) (rule : Int) (child : List Int) (sBot mBot : Stack) (n : Nat)
    (hs : c.sym = false) (hd : c.damTol = false) (hdi : c.diso = true)
    (hn : n % 2 = 0) (hn2 : 2 ≤ n) (x : Int) (hx : x ∈ child)
    (hb : mBot = [] → sBot = []) (hk : mBot ≠ [] → isDiso x (nth mBot (mBot.length - 1)) c.deltaAngle = true) :
    laylaPruning child sBot mBot [] [] (n - 1) n c rule = .error .indexError := by
  have e3 : laylaPruning child sBot mBot [] [] (n - 1) n c rule =
      laylaRules child sBot mBot [] [] (n - 1) n c := by simp [laylaPruning, hs, hd]
  have e : laylaDiso child sBot mBot [] [] (n - 1) n c = .error .indexError := by
    have hp : (n - 1) % 2 = 1 := by omega
    unfold laylaDiso
    rw [if_pos hdi]
    simp only [hp, hs, or_true, if_true, true_and, Nat.one_ne_zero, if_false, List.length_nil, and_true]
    by_cases hm : mBot = []
    · subst hm
      rw [hb rfl]
      simp only [List.length_nil, gt_iff_lt, Nat.lt_irrefl, false_and, if_false]
      rw [if_pos (List.length_pos_of_mem hx)]
    · have hmp : mBot.length > 0 := List.length_pos_iff.2 hm
      have h1 : ¬ (sBot.length > 0 ∧ mBot.length = 0) := by omega
      simp only [h1, hmp, if_false, if_true]
      rw [if_pos (List.length_pos_of_mem (a := x) (List.mem_filter.2 ⟨hx, hk hm⟩))]
  rw [e3, laylaRules, e]
  rfl

/-- C75, violation: asymmetric laminates.  The plies are designed in the order 0, n-1, 1, n-2, 2, ...; the face
is then deduced from the parity of the index of the ply: the third ply of the bottom face is compared with the top
face, so that a laminate that breaks disorientation is kept and a correct one is discarded. -/
theorem C75_parity_violation : ∃ (a : ConsArgs) (c : Cons), mkConstraints a = .ok c ∧
    c.sym = false ∧ c.diso = true ∧ c.deltaAngle = 45 ∧ c.contig = false ∧ c.damTol = false ∧
    laylaPruning [-45, 0, 45, 90] [] [0, 0] [] [90, 90] 2 8 c 1 = .ok (some [-45, 45, 90]) ∧
    ¬ Spec.WithinAngle 45 0 90 ∧ Spec.WithinAngle 45 0 0 := by
  obtain ⟨c, hc, ht⟩ := ok_of_test (mkConstraints { diso := true, deltaAngle := 45 })
    (fun c => decide (c.sym = false ∧ c.diso = true ∧ c.deltaAngle = 45 ∧ c.contig = false ∧ c.damTol = false ∧
      laylaPruning [-45, 0, 45, 90] [] [0, 0] [] [90, 90] 2 8 c 1 = .ok (some [-45, 45, 90]))) (by decide +kernel)
  simp only [decide_eq_true_eq] at ht
  obtain ⟨g1, g2, g3, g4, g5, g6⟩ := ht
  refine ⟨_, c, hc, g1, g2, g3, g4, g5, g6, ?_, withinAngle_self (by omega)⟩
  rintro ⟨k, hk⟩
  rw [abs_le] at hk
  omega

/-- C75, violation: asymmetric laminates with contiguity: the plies of the top face are never compared with each
other, so that a fourth equal ply in a row is kept with a limit of two. -/
theorem C75_top_contiguity_violation : ∃ (a : ConsArgs) (c : Cons), mkConstraints a = .ok c ∧
    c.sym = false ∧ c.contig = true ∧ c.nContig = 2 ∧ c.diso = false ∧ c.damTol = false ∧
    laylaPruning [0, 90] [] [0, 90, 0, 90] [] [0, 0, 0] 16 20 c 1 = .ok (some [0, 90]) ∧
    ¬ Spec.ContigOK 2 [0, 0, 0, 0] := by
  obtain ⟨c, hc, ht⟩ := ok_of_test (mkConstraints { contig := true, nContig := 2 })
    (fun c => decide (c.sym = false ∧ c.contig = true ∧ c.nContig = 2 ∧ c.diso = false ∧ c.damTol = false ∧
      laylaPruning [0, 90] [] [0, 90, 0, 90] [] [0, 0, 0] 16 20 c 1 = .ok (some [0, 90]))) (by decide +kernel)
  simp only [decide_eq_true_eq] at ht
  obtain ⟨g1, g2, g3, g4, g5, g6⟩ := ht
  exact ⟨_, c, hc, g1, g2, g3, g4, g5, g6, fun h => h 0 ⟨[], [0], rfl⟩⟩

/-- The hypotheses of `C75_laminate` are met: groups of three plies, 14 plies, damage tolerance rule 2,
disorientation and contiguity enforced. -/
theorem C75_example : ∃ (a : ConsArgs) (c : Cons), mkConstraints a = .ok c ∧
    c.sym = true ∧ c.damTol = true ∧ c.diso = true ∧ c.contig = true ∧ c.nContig = 2 ∧ c.deltaAngle = 45 ∧
    (∀ k, (hk : k < 7) → ∃ kept, laylaPruning [-45, 0, 45, 90]
      (laylaSimpBot c ([45, -45, 0, 45, 90, 90, 45].take (k - k % 3)))
      ((([45, -45, 0, 45, 90, 90, 45] : List Int).take k).drop (k - k % 3)) [] [] k 14 c 2 = .ok (some kept) ∧
      ([45, -45, 0, 45, 90, 90, 45] : List Int)[k] ∈ kept) ∧
    laylaPruning [-45, 0, 45, 90] (laylaSimpBot c [45, -45, 0, 45, 90, 90]) [] [] [] 6 14 c 2 =
      .ok (some [-45, 45]) := by
  obtain ⟨c, hc, ht⟩ := ok_of_test (mkConstraints
      { sym := true, contig := true, nContig := 2, diso := true, deltaAngle := 45, damTol := true })
    (fun c => decide (c.sym = true ∧ c.damTol = true ∧ c.diso = true ∧ c.contig = true ∧ c.nContig = 2 ∧
      c.deltaAngle = 45 ∧
      laylaPruning [-45, 0, 45, 90] (laylaSimpBot c []) [] [] [] 0 14 c 2 = .ok (some [-45, 45]) ∧
      laylaPruning [-45, 0, 45, 90] (laylaSimpBot c []) [45] [] [] 1 14 c 2 = .ok (some [-45]) ∧
      laylaPruning [-45, 0, 45, 90] (laylaSimpBot c []) [45, -45] [] [] 2 14 c 2 = .ok (some [-45, 0, 90]) ∧
      laylaPruning [-45, 0, 45, 90] (laylaSimpBot c [45, -45, 0]) [] [] [] 3 14 c 2 = .ok (some [-45, 0, 45]) ∧
      laylaPruning [-45, 0, 45, 90] (laylaSimpBot c [45, -45, 0]) [45] [] [] 4 14 c 2 = .ok (some [0, 45, 90]) ∧
      laylaPruning [-45, 0, 45, 90] (laylaSimpBot c [45, -45, 0]) [45, 90] [] [] 5 14 c 2 =
        .ok (some [-45, 45, 90]) ∧
      laylaPruning [-45, 0, 45, 90] (laylaSimpBot c [45, -45, 0, 45, 90, 90]) [] [] [] 6 14 c 2 =
        .ok (some [-45, 45]))) (by decide +kernel)
  simp only [decide_eq_true_eq] at ht
  obtain ⟨g1, g2, g3, g4, g5, g6, k0, k1, k2, k3, k4, k5, k6⟩ := ht
  refine ⟨_, c, hc, g1, g2, g3, g4, g5, g6, ?_, k6⟩
  intro k hk
  match k, hk with
  | 0, _ => exact ⟨_, k0, by simp⟩
  | 1, _ => exact ⟨_, k1, by simp⟩
  | 2, _ => exact ⟨_, k2, by simp⟩
  | 3, _ => exact ⟨_, k3, by simp⟩
  | 4, _ => exact ⟨_, k4, by simp⟩
  | 5, _ => exact ⟨_, k5, by simp⟩
  | 6, _ => exact ⟨_, k6, by simp⟩

end Bella
