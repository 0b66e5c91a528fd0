import Verif.Props.Filters
import Verif.Model.Pruning
import Verif.Spec.Search
import Verif.Proofs.Monad
/-
Property C38: pruning of ply angles during the beam search.
-/
namespace Bella

section
open Classical

theorem contigHit2_iff (ss : Stack) (n i : Nat) :
    contigHit2 ss n i = true ↔ ∀ j, j ≤ n → nth ss (i + j) = nth ss i := by
  simp only [contigHit2, List.all_eq_true, List.mem_range, beq_iff_eq]
  constructor
  · intro h j hj
    cases j with
    | zero => rfl
    | succ j => have := h j (by omega); rw [this]; congr 1
  · intro h k hk
    have := h (k + 1) (by omega)
    rw [← this]; congr 1

/-- `internal_contig2` is an exact test of the contiguity rule. -/
theorem internalContig2_eq (ss : Stack) (c : Cons) (hc : c.contig = true) (h2 : 2 ≤ c.nContig)
    (h6 : c.nContig ≤ 6) : internalContig2 ss c = .ok (decide (Spec.ContigOK c.nContig ss)) := by
  have hcases : c.nContig = 2 ∨ c.nContig = 3 ∨ c.nContig = 4 ∨ c.nContig = 5 ∨ c.nContig = 6 := by
    omega
  unfold internalContig2
  rw [if_pos hc]
  by_cases hl : c.nContig < ss.length
  · rw [if_pos hl, if_pos hcases]
    congr 1
    rw [Bool.eq_iff_iff, decide_eq_true_eq, contigOK_iff]
    simp only [List.all_eq_true, List.mem_range, Bool.not_eq_true', Bool.eq_false_iff, ne_eq,
      contigHit2_iff]
    push Not
    rfl
  · rw [if_neg hl]
    congr 1
    symm
    rw [decide_eq_true_eq]
    exact contigOK_short (by omega)

theorem keepIf_ok (f : Int → Py Bool) (g : Int → Bool) (l : List Int)
    (h : ∀ a ∈ l, f a = .ok (g a)) : keepIf f l = .ok (l.filter g) := by
  induction l with
  | nil => rfl
  | cons a t ih =>
    rw [keepIf, ih (fun x hx => h x (by simp [hx])), h a (by simp), List.filter_cons]
    rfl

theorem nth_snoc (b : Stack) (a : Int) (i : Nat) :
    nth (b ++ [a]) i = if i < b.length then nth b i else if i = b.length then a else 0 := by
  unfold nth
  by_cases h : i < b.length
  · rw [if_pos h, List.getD_append _ _ _ _ h]
  · rw [if_neg h, List.getD_append_right _ _ _ _ (by omega)]
    by_cases h2 : i = b.length
    · simp [h2]
    · rw [if_neg h2]
      have : i - b.length ≠ 0 := by omega
      obtain ⟨k, hk⟩ := Nat.exists_eq_succ_of_ne_zero this
      rw [hk]; simp

/-- adding a ply: only the new pair of neighbours matters -/
theorem pairsWithin_snoc (d : Int) (b : Stack) (a : Int) (lo : Nat)
    (hb : Spec.PairsWithin d b lo (b.length - 1)) :
    Spec.PairsWithin d (b ++ [a]) lo ((b ++ [a]).length - 1) ↔
      (lo + 1 ≤ b.length → Spec.WithinAngle d (nth b (b.length - 1)) a) := by
  rw [pairsWithin_iff_nth] at *
  simp only [List.length_append, List.length_singleton, Nat.add_sub_cancel]
  constructor
  · intro h hl
    have := h (b.length - 1) (by omega) (by omega) (by omega)
    rw [nth_snoc, nth_snoc, if_pos (by omega), if_neg (by omega), if_pos (by omega)] at this
    exact this
  · intro h i h1 h2 h3
    rw [nth_snoc, nth_snoc, if_pos h2]
    by_cases h4 : i + 1 < b.length
    · rw [if_pos h4]; exact hb i h1 (by omega) (by omega)
    · rw [if_neg h4, if_pos (by omega)]
      have : i = b.length - 1 := by omega
      rw [this]; exact h (by omega)

theorem junctionContig_snoc (n : Nat) (hn : 2 ≤ n) (b : Stack) (a : Int) (hb : Spec.ContigOK n b) :
    Spec.JunctionContig n b [a] ↔ Spec.ContigOK n (b ++ [a]) := by
  rw [contigOK_append n (by omega)]
  have : Spec.ContigOK n [a] := contigOK_short (by simp; omega)
  exact ⟨fun h => ⟨hb, this, h⟩, fun h => h.2.2⟩

/-- the rules enforced by a constraint object, in the vocabulary of the specification -/
def optDamTol (c : Cons) (rule : Int) : Option Int := if c.damTol then some rule else none
def optDiso (c : Cons) : Option Int := if c.diso then some c.deltaAngle else none
def optContig (c : Cons) : Option Nat := if c.contig then some c.nContig else none

/-- The partial laminate satisfies the rules enforced. -/
abbrev FeasiblePart (c : Cons) (rule : Int) (b : Stack) : Prop :=
  Spec.PartialOK (optDamTol c rule) (optDiso c) (optContig c) b

/-- angles of a list in the range -90..90 -/
abbrev AnglesInRange (l : List Int) : Prop := ∀ x ∈ l, -90 ≤ x ∧ x ≤ 90

theorem pruneDiso_sym (child : List Int) (bot top : Stack) (level n : Nat) (c : Cons)
    (hs : c.sym = true) :
    pruneDiso child bot top level n c = .ok (child.filter (fun a =>
      decide (c.diso = true → bot.length > 0 →
        isDiso a (nth bot (bot.length - 1)) c.deltaAngle = true))) := by
  unfold pruneDiso
  by_cases hd : c.diso = true
  · have hn : ¬ (¬ c.sym = true ∧ level = n - 1) := by simp [hs]
    simp only [hd, if_true, hs, true_or]
    rw [if_neg (by simp)]
    congr 1
    by_cases hb : bot.length > 0
    · rw [if_pos hb]
      apply List.filter_congr
      intro a _
      rw [Bool.eq_iff_iff, decide_eq_true_eq]
      simp [hb]
    · rw [if_neg hb]
      symm
      rw [List.filter_eq_self]
      intro a _
      simp [hb]
  · rw [if_neg hd]
    congr 1
    symm
    rw [List.filter_eq_self]
    intro a _
    simp [hd]

/-- both rules, one ply added to a symmetric laminate, before the last level -/
theorem pruneRules_inner (child : List Int) (bot top : Stack) (level n : Nat) (c : Cons)
    (hm : Bool) (hs : c.sym = true) (hlev : level ≠ n - 1) (hne : child ≠ [])
    (hc : c.contig = true → 2 ≤ c.nContig ∧ c.nContig ≤ 6) :
    pruneRules child bot top level n c hm = .ok (noneIfEmpty (child.filter (fun a => decide
      ((c.diso = true → bot.length > 0 →
        isDiso a (nth bot (bot.length - 1)) c.deltaAngle = true) ∧
       (c.contig = true → Spec.JunctionContig c.nContig bot [a]))))) := by
  unfold pruneRules
  rw [pruneDiso_sym _ _ _ _ _ _ hs]
  have hk : ∀ l : List Int, c.contig = true → pruneContig l bot level n c hm =
      .ok (l.filter (fun a => decide (Spec.JunctionContig c.nContig bot [a]))) := by
    intro l hcg
    unfold pruneContig
    rw [if_pos hlev, if_pos (Or.inl hs)]
    apply keepIf_ok
    intro a _
    rw [C12_external_contig (β := Unit) c 1 (by omega) bot [[a]] (by simp) hc]
    simp only [hcg, forall_const]
    by_cases hj : Spec.JunctionContig c.nContig bot [a] <;> simp [hj, bind, Except.bind, pure, Except.pure]
  change (if _ then _ else _) = _
  by_cases hcg : c.contig = true
  · simp only [hcg, if_true, forall_const]
    split
    · rename_i h0
      have hnil := List.length_eq_zero_iff.1 h0.2
      have : child.filter (fun a => decide ((c.diso = true → bot.length > 0 →
          isDiso a (nth bot (bot.length - 1)) c.deltaAngle = true) ∧
          Spec.JunctionContig c.nContig bot [a])) = [] := by
        rw [List.filter_eq_nil_iff] at hnil ⊢
        intro a ha
        have := hnil a ha
        simp only [decide_eq_true_eq] at this ⊢
        tauto
      rw [this]; rfl
    · rw [hk _ hcg, List.filter_filter]
      simp only [bind, Except.bind, pure, Except.pure, Except.ok.injEq]
      congr 1
      apply List.filter_congr
      intro a _
      rw [Bool.eq_iff_iff]
      simp only [Bool.and_eq_true, decide_eq_true_eq]
      tauto
  · have e2 : child.filter (fun a => decide ((c.diso = true → bot.length > 0 →
          isDiso a (nth bot (bot.length - 1)) c.deltaAngle = true) ∧
          (c.contig = true → Spec.JunctionContig c.nContig bot [a]))) =
        child.filter (fun a => decide (c.diso = true → bot.length > 0 →
          isDiso a (nth bot (bot.length - 1)) c.deltaAngle = true)) := by
      apply List.filter_congr
      intro a _
      rw [Bool.eq_iff_iff, decide_eq_true_eq, decide_eq_true_eq]
      exact ⟨fun h => h.1, fun h => ⟨h, fun h' => absurd h' hcg⟩⟩
    rw [e2]
    by_cases hd : c.diso = true
    · generalize child.filter (fun a => decide (c.diso = true → bot.length > 0 →
          isDiso a (nth bot (bot.length - 1)) c.deltaAngle = true)) = l
      unfold noneIfEmpty
      by_cases hl : l.length = 0
      · rw [if_pos ⟨hd, hl⟩, if_pos hl]; rfl
      · rw [if_neg (fun h => hl h.2), if_neg hcg, if_neg hl]; rfl
    · have e : child.filter (fun a => decide (c.diso = true → bot.length > 0 →
          isDiso a (nth bot (bot.length - 1)) c.deltaAngle = true)) = child := by
        rw [List.filter_eq_self]; intro a _; simp [hd]
      rw [e, if_neg (fun h => hd h.1), if_neg hcg]
      have : child.length ≠ 0 := by simpa using hne
      rw [noneIfEmpty, if_neg this]; rfl

/-- The second surface ply rules do not restrict a partial laminate with a number of plies other
than one. -/
theorem feasible_snoc (c : Cons) (rule : Int) (bot : Stack) (a : Int)
    (hb : FeasiblePart c rule bot) (hcn : c.contig = true → 2 ≤ c.nContig)
    (hin : AnglesInRange bot) (ha : -90 ≤ a ∧ a ≤ 90) :
    FeasiblePart c rule (bot ++ [a]) ↔
      (c.damTol = true → bot.length = 0 → Spec.PM45 a) ∧
      (c.damTol = true → rule = 2 → bot.length = 1 → a = -(nth bot 0)) ∧
      (c.damTol = true → rule = 3 → bot.length = 1 → Spec.PM45 a) ∧
      (c.diso = true → ((if c.damTol = true ∧ (rule = 2 ∨ rule = 3) then 2 else 1) ≤ bot.length) →
        isDiso a (nth bot (bot.length - 1)) c.deltaAngle = true) ∧
      (c.contig = true → Spec.JunctionContig c.nContig bot [a]) := by
  have hget0 : ∀ x, (bot ++ [a])[0]? = some x ↔ (bot[0]? = some x ∨ (bot.length = 0 ∧ x = a)) := by
    intro x
    cases bot with
    | nil => simp [eq_comm]
    | cons y t => simp
  have hget1 : ∀ x, (bot ++ [a])[1]? = some x ↔ (bot[1]? = some x ∨ (bot.length = 1 ∧ x = a)) := by
    intro x
    match bot with
    | [] => simp
    | [y] => simp [eq_comm]
    | y :: z :: t => simp
  have hlo : (if optDamTol c rule = some 2 ∨ optDamTol c rule = some 3 then 1 else 0) + 1 =
      (if c.damTol = true ∧ (rule = 2 ∨ rule = 3) then 2 else 1) := by
    unfold optDamTol
    by_cases hd : c.damTol = true
    · simp only [hd, if_true, Option.some.injEq, true_and]; split <;> rfl
    · simp [hd]
  have hdiso : ∀ d, optDiso c = some d → (Spec.PairsWithin d (bot ++ [a])
      (if optDamTol c rule = some 2 ∨ optDamTol c rule = some 3 then 1 else 0)
      ((bot ++ [a]).length - 1) ↔
      (((if c.damTol = true ∧ (rule = 2 ∨ rule = 3) then 2 else 1) ≤ bot.length) →
        isDiso a (nth bot (bot.length - 1)) c.deltaAngle = true)) := by
    intro d hd
    have hd' : c.diso = true ∧ d = c.deltaAngle := by
      unfold optDiso at hd; split at hd <;> simp_all
    obtain ⟨_, rfl⟩ := hd'
    rw [pairsWithin_snoc _ _ _ _ (hb.diso _ hd), hlo]
    refine forall_congr' fun hl => ?_
    rw [isDiso_iff _ _ _ ha (InRange.nth hin _)]
    exact ⟨withinAngle_comm, withinAngle_comm⟩
  constructor
  · intro h
    refine ⟨fun hd hl => ?_, fun hd hr hl => ?_, fun hd hr hl => ?_, fun hd hl => ?_, fun hcg => ?_⟩
    · exact h.outer (by simp [optDamTol, hd]) a ((hget0 a).2 (Or.inr ⟨hl, rfl⟩))
    · refine h.second2 (by simp [optDamTol, hd, hr]) _ a ((hget0 _).2 (Or.inl ?_))
        ((hget1 a).2 (Or.inr ⟨hl, rfl⟩))
      rw [nth_eq_getElem _ _ (by omega), List.getElem?_eq_getElem (by omega)]
    · exact h.second3 (by simp [optDamTol, hd, hr]) a ((hget1 a).2 (Or.inr ⟨hl, rfl⟩))
    · have e : optDiso c = some c.deltaAngle := by simp [optDiso, hd]
      exact (hdiso _ e).1 (h.diso _ e) hl
    · have e : optContig c = some c.nContig := by simp [optContig, hcg]
      exact (junctionContig_snoc _ (hcn hcg) _ _ (hb.contig _ e)).2 (h.contig _ e)
  · rintro ⟨h1, h2, h3, h4, h5⟩
    have hdt : ∀ r, optDamTol c rule = some r → c.damTol = true ∧ rule = r := by
      intro r hr; unfold optDamTol at hr; split at hr <;> simp_all
    refine ⟨fun hd x hx => ?_, fun hd x y hx hy => ?_, fun hd y hy => ?_, fun d hd => ?_, fun n hn => ?_⟩
    · rcases (hget0 x).1 hx with hx | ⟨hl, rfl⟩
      · exact hb.outer hd x hx
      · refine h1 ?_ hl
        unfold optDamTol at hd; split at hd <;> simp_all
    · rcases (hget1 y).1 hy with hy | ⟨hl, rfl⟩
      · rcases (hget0 x).1 hx with hx | ⟨hl, rfl⟩
        · exact hb.second2 hd x y hx hy
        · have := List.length_eq_zero_iff.1 hl; subst this; simp at hy
      · rcases (hget0 x).1 hx with hx | ⟨hl', rfl⟩
        · rw [h2 (hdt _ hd).1 (hdt _ hd).2 hl, nth_eq_getElem _ _ (by omega)]
          rw [List.getElem?_eq_getElem (by omega)] at hx
          simp only [Option.some.injEq] at hx
          rw [hx]
        · omega
    · rcases (hget1 y).1 hy with hy | ⟨hl, rfl⟩
      · exact hb.second3 hd y hy
      · exact h3 (hdt _ hd).1 (hdt _ hd).2 hl
    · have hd' : c.diso = true := by unfold optDiso at hd; split at hd <;> simp_all
      exact (hdiso d hd).2 (h4 hd')
    · have hn' : c.contig = true ∧ n = c.nContig := by
        unfold optContig at hn; split at hn <;> simp_all
      obtain ⟨hcg, rfl⟩ := hn'
      exact (junctionContig_snoc _ (hcn hcg) _ _ (hb.contig _ hn)).1 (h5 hcg)

theorem inMySet_iff (a : Int) : inMySet a = true ↔ Spec.PM45 a := by
  simp [inMySet, Spec.PM45]

theorem isDiso_pm45 (d : Int) : isDiso (-45) 45 d = true ↔ 90 ≤ d := by
  unfold isDiso
  split
  · rename_i h; simp at h ⊢; omega
  · rename_i h; simp at h ⊢; omega

theorem junctionContig_short (n : Nat) (b : Stack) (a : Int) (hl : b.length < n) :
    Spec.JunctionContig n b [a] := by
  rintro p x h1 h2 ⟨h3, h4⟩
  have := h3.length_le
  have := h4.length_le
  simp at *
  omega

/-- What the pruning asks of the second ply on top of the rules under damage tolerance rule 3, when disorientation is
enforced with less than 90 degrees: it must be opposite to the first one. -/
def OppositeSecond (c : Cons) (rule : Int) (bot : Stack) (a : Int) : Prop :=
  c.damTol = true → rule = 3 → c.diso = true → c.deltaAngle < 90 → bot.length = 1 → a = -(nth bot 0)

/-- C38: adding one ply to a symmetric laminate (before the last level of the search), whatever the rules: from a
partial laminate that satisfies the enforced rules, the orientations kept are exactly those for which the extended
partial laminate still satisfies them, apart from the second ply under damage tolerance rule 3 with disorientation
enforced at less than 90 degrees, which must moreover be opposite to the first one. -/
theorem C38_pruning_all_rules (c : Cons) (rule : Int) (child : List Int) (bot top : Stack) (n : Nat)
    (hm : Bool) (hs : c.sym = true) (hlev : bot.length + 1 < n) (hne : child ≠ [])
    (hc : c.contig = true → 2 ≤ c.nContig ∧ c.nContig ≤ 6)
    (hin : AnglesInRange bot) (hch : AnglesInRange child) (hb : FeasiblePart c rule bot) :
    pruning child bot top bot.length n c rule hm =
      .ok (noneIfEmpty (child.filter (fun a => decide
        (FeasiblePart c rule (bot ++ [a]) ∧ OppositeSecond c rule bot a)))) := by
  have hcn : c.contig = true → 2 ≤ c.nContig := fun h => (hc h).1
  have hmid : ¬ (c.sym = true ∧ bot.length = n - 1 ∧ hm = true) := by rintro ⟨_, h, _⟩; omega
  have hlev' : bot.length ≠ n - 1 := by omega
  have hfilter : ∀ f : Int → Bool, (∀ a ∈ child, f a = true ↔ (FeasiblePart c rule (bot ++ [a]) ∧ OppositeSecond c rule bot a)) →
      child.filter f = child.filter (fun a => decide (FeasiblePart c rule (bot ++ [a]) ∧ OppositeSecond c rule bot a)) := by
    intro f hf
    apply List.filter_congr
    intro a ha
    rw [Bool.eq_iff_iff, decide_eq_true_eq, hf a ha]
  have hdrop : ∀ a, ¬ (c.damTol = true ∧ rule = 3 ∧ bot.length = 1) →
      ((FeasiblePart c rule (bot ++ [a]) ∧ OppositeSecond c rule bot a) ↔ FeasiblePart c rule (bot ++ [a])) :=
    fun a h => ⟨fun g => g.1, fun g => ⟨g, fun h1 h2 _ _ h3 => absurd ⟨h1, h2, h3⟩ h⟩⟩
  unfold pruning
  simp only [hmid, if_false]
  by_cases hd : c.damTol = true
  · rw [if_pos hd]
    by_cases h0 : bot.length = 0
    · rw [if_pos (Or.inl h0)]
      congr 2
      apply hfilter
      intro a ha
      rw [hdrop a (by omega), inMySet_iff, feasible_snoc c rule bot a hb hcn hin (hch a ha)]
      constructor
      · intro h
        refine ⟨fun _ _ => h, fun _ _ h1 => by omega, fun _ _ h1 => by omega, fun _ h1 => ?_,
          fun hcg => junctionContig_short _ _ _ (by have := hcn hcg; omega)⟩
        split at h1 <;> omega
      · exact fun h => h.1 hd h0
    · have hz : ¬ (bot.length = 0 ∨ (¬ c.sym = true ∧ bot.length = n - 1)) := by simp [h0, hs]
      rw [if_neg hz]
      by_cases h1 : (rule = 2 ∨ rule = 3) ∧ bot.length = 1
      · rw [if_pos h1]
        have hp : pyGet bot 0 = .ok (nth bot 0) := by
          rw [pyGet_ok (by omega), nth_eq_getElem]
        rw [hp]
        change Except.ok _ = _
        congr 2
        have hshort : ∀ a, c.contig = true → Spec.JunctionContig c.nContig bot [a] := fun a hcg =>
          junctionContig_short _ _ _ (by have := hcn hcg; omega)
        have hm45 : Spec.PM45 (nth bot 0) := hb.outer (by simp [optDamTol, hd]) _ (by
          rw [nth_eq_getElem _ _ (by omega), List.getElem?_eq_getElem])
        rcases h1.1 with rfl | rfl
        · simp only [damTolSecond, if_true]
          apply hfilter
          intro a ha
          rw [hdrop a (by simp), beq_iff_eq, feasible_snoc c 2 bot a hb hcn hin (hch a ha)]
          constructor
          · rintro rfl
            refine ⟨fun _ h => by omega, fun _ _ _ => rfl, fun _ h => by omega, fun _ h => ?_, hshort _⟩
            rw [if_pos ⟨hd, Or.inl rfl⟩] at h; omega
          · exact fun h => h.2.1 hd rfl h1.2
        · simp only [damTolSecond, show ¬ ((3 : Int) = 2) by omega, if_false, if_true]
          apply hfilter
          intro a ha
          rw [feasible_snoc c 3 bot a hb hcn hin (hch a ha), Bool.and_eq_true, inMySet_iff]
          have hfl : (! (c.diso && ! isDiso (-45) 45 c.deltaAngle) || a == -(nth bot 0)) = true ↔
              (c.diso = true → c.deltaAngle < 90 → a = -(nth bot 0)) := by
            have h90 := isDiso_pm45 c.deltaAngle
            cases hdi : c.diso with
            | false => simp
            | true =>
              cases hb90 : isDiso (-45) 45 c.deltaAngle with
              | false =>
                rw [hb90] at h90
                have : c.deltaAngle < 90 := by
                  by_contra hcon
                  exact absurd (h90.2 (by omega)) (by simp)
                simp [this]
              | true =>
                have h91 := h90.1 hb90
                simp only [Bool.not_true, Bool.and_false, Bool.not_false, Bool.true_or, true_iff]
                intro _ h; omega
          rw [hfl]
          constructor
          · rintro ⟨h, h'⟩
            refine ⟨⟨fun _ h => by omega, fun _ h => by omega, fun _ _ _ => h, fun _ h => ?_, hshort _⟩,
              fun _ _ g1 g2 _ => h' g1 g2⟩
            rw [if_pos ⟨hd, Or.inr rfl⟩] at h; omega
          · exact fun h => ⟨h.1.2.2.1 hd rfl h1.2, fun g1 g2 => h.2 hd rfl g1 g2 h1.2⟩
      · rw [if_neg h1, if_neg (by simp [hs]), pruneRules_inner _ _ _ _ _ _ _ hs hlev' hne hc]
        congr 2
        apply hfilter
        intro a ha
        rw [hdrop a (fun h => h1 ⟨Or.inr h.2.1, h.2.2⟩), decide_eq_true_eq,
          feasible_snoc c rule bot a hb hcn hin (hch a ha)]
        constructor
        · rintro ⟨g1, g2⟩
          exact ⟨fun _ h => absurd h h0, fun _ h h' => absurd ⟨Or.inl h, h'⟩ h1,
            fun _ h h' => absurd ⟨Or.inr h, h'⟩ h1, fun h _ => g1 h (by omega), g2⟩
        · rintro ⟨_, _, _, g4, g5⟩
          refine ⟨fun h h' => g4 h ?_, g5⟩
          split
          · rename_i h2
            have : bot.length ≠ 1 := fun h3 => h1 ⟨h2.2, h3⟩
            omega
          · omega
  · rw [if_neg hd, pruneRules_inner _ _ _ _ _ _ _ hs hlev' hne hc]
    congr 2
    apply hfilter
    intro a ha
    rw [hdrop a (fun h => hd h.1), decide_eq_true_eq, feasible_snoc c rule bot a hb hcn hin (hch a ha)]
    simp only [hd, Bool.false_eq_true, false_and, if_false, false_implies, true_and]
    constructor
    · rintro ⟨g1, g2⟩; exact ⟨fun h h' => g1 h (by omega), g2⟩
    · rintro ⟨g1, g2⟩; exact ⟨fun h h' => g1 h (by omega), g2⟩

/-- C38: adding one ply to a symmetric laminate (before the last level of the search): from a
partial laminate that satisfies the enforced rules, the orientations kept are exactly those for
which the extended partial laminate still satisfies them (damage tolerance rules 1 and 2, and
rule 3 unless disorientation is enforced with less than 90 degrees). -/
theorem C38_pruning_exact (c : Cons) (rule : Int) (child : List Int) (bot top : Stack) (n : Nat)
    (hm : Bool) (hs : c.sym = true) (hlev : bot.length + 1 < n) (hne : child ≠ [])
    (hc : c.contig = true → 2 ≤ c.nContig ∧ c.nContig ≤ 6)
    (hrule : rule = 1 ∨ rule = 2 ∨ (rule = 3 ∧ (c.diso = true → 90 ≤ c.deltaAngle)))
    (hin : AnglesInRange bot) (hch : AnglesInRange child) (hb : FeasiblePart c rule bot) :
    pruning child bot top bot.length n c rule hm =
      .ok (noneIfEmpty (child.filter (fun a => decide (FeasiblePart c rule (bot ++ [a]))))) := by
  rw [C38_pruning_all_rules c rule child bot top n hm hs hlev hne hc hin hch hb]
  have : ∀ a, (FeasiblePart c rule (bot ++ [a]) ∧ OppositeSecond c rule bot a) ↔ FeasiblePart c rule (bot ++ [a]) :=
    fun a => ⟨fun h => h.1, fun h => ⟨h, fun _ h2 h3 h4 _ => by
      rcases hrule with g | g | ⟨_, g⟩
      · omega
      · omega
      · have := g h3; omega⟩⟩
  simp only [this]

/-! ### last level -/

/-- extending a symmetric core by plies already feasible with its outermost ones -/
theorem contigOK_mirror_extend (n : Nat) (hn : 1 ≤ n) (P T M : Stack) (hT : n ≤ T.length)
    (hPT : Spec.ContigOK n (P ++ T)) :
    Spec.ContigOK n (P ++ T ++ M ++ (P ++ T).reverse) ↔ Spec.ContigOK n (T ++ M ++ T.reverse) := by
  constructor
  · intro h
    refine contigOK_infix h ⟨P, P.reverse, ?_⟩
    simp [List.append_assoc]
  · intro h
    have hJ := ((contigOK_append n hn P T).1 hPT).2.2
    have hP := ((contigOK_append n hn P T).1 hPT).1
    -- junction of `P` with a stack starting with `T`
    have hJ2 : ∀ X : Stack, Spec.JunctionContig n P (T ++ X) := by
      rintro X p a h1 h2 ⟨h3, h4⟩
      refine hJ p a h1 h2 ⟨h3, ?_⟩
      refine List.prefix_of_prefix_length_le h4 (List.prefix_append T X) ?_
      simp; omega
    have step1 : Spec.ContigOK n (P ++ (T ++ M ++ T.reverse)) := by
      rw [contigOK_append n hn]
      refine ⟨hP, h, ?_⟩
      rw [List.append_assoc]
      exact hJ2 _
    have hrev : P ++ T ++ M ++ (P ++ T).reverse = (P ++ (T ++ M ++ T.reverse)) ++ P.reverse := by
      simp [List.append_assoc]
    rw [hrev, contigOK_append n hn]
    refine ⟨step1, contigOK_reverse hP, ?_⟩
    rintro p a h1 h2 ⟨h3, h4⟩
    refine hJ (n + 1 - p) a (by omega) (by omega) ⟨?_, ?_⟩
    · have := List.reverse_suffix.2 h4
      rw [List.reverse_replicate, List.reverse_reverse] at this
      exact this
    · have h5 : T.reverse <:+ P ++ (T ++ M ++ T.reverse) := ⟨P ++ (T ++ M), by simp [List.append_assoc]⟩
      have h6 : List.replicate p a <:+ T.reverse := by
        refine List.suffix_of_suffix_length_le h3 h5 ?_
        simp; omega
      have := List.reverse_prefix.2 h6
      rw [List.reverse_replicate, List.reverse_reverse] at this
      rw [show n + 1 - (n + 1 - p) = p by omega]
      exact this

/-- C38: adding the last ply of a symmetric laminate (the middle ply if `hm`, then restricted to 0
and 90): from a partial laminate that satisfies the rules and has at least `n_contig` plies, the
orientations kept are exactly those for which the half laminate satisfies the rules and the
complete laminate satisfies contiguity. -/
theorem C38_pruning_last (c : Cons) (rule : Int) (child : List Int) (bot top : Stack) (n : Nat)
    (hm : Bool) (hs : c.sym = true) (hlev : bot.length + 1 = n) (hne : child ≠ [])
    (hlen : 2 ≤ bot.length) (hc : c.contig = true → 2 ≤ c.nContig ∧ c.nContig ≤ 6)
    (hcl : c.contig = true → c.nContig ≤ bot.length)
    (hin : AnglesInRange bot) (hch : AnglesInRange child) (hb : FeasiblePart c rule bot) :
    pruning child bot top bot.length n c rule hm =
      .ok (noneIfEmpty ((if hm then [0, 90] else child).filter (fun a => decide
        (FeasiblePart c rule (bot ++ [a]) ∧
          (c.contig = true → Spec.ContigOK c.nContig (Spec.mirrored hm (bot ++ [a]))))))) := by
  have hcn : c.contig = true → 2 ≤ c.nContig := fun h => (hc h).1
  have hchild : (if c.sym = true ∧ bot.length = n - 1 ∧ hm = true then ([0, 90] : List Int) else child) =
      if hm then [0, 90] else child := by
    cases hm
    · simp
    · rw [if_pos ⟨hs, by omega, rfl⟩]; simp
  have hsel : pruning child bot top bot.length n c rule hm =
      pruneRules (if hm then [0, 90] else child) bot top bot.length n c hm := by
    unfold pruning
    rw [hchild]
    dsimp only
    by_cases hd : c.damTol = true
    · rw [if_pos hd, if_neg (by rintro (h | ⟨h, _⟩); · omega
                                · exact h hs), if_neg (by omega), if_neg (by simp [hs])]
    · rw [if_neg hd]
  rw [hsel]
  have hne2 : (if hm then ([0, 90] : List Int) else child) ≠ [] := by
    cases hm
    · simpa using hne
    · simp
  have hch2 : AnglesInRange (if hm then ([0, 90] : List Int) else child) := by
    cases hm
    · simpa using hch
    · intro x hx; simp at hx; omega
  generalize (if hm then ([0, 90] : List Int) else child) = ch at *
  have hmirror : ∀ a, c.contig = true →
      (Spec.ContigOK c.nContig (tailFrom bot c.nContig ++ (if hm then [a] else [a, a]) ++
        (tailFrom bot c.nContig).reverse) ↔ Spec.ContigOK c.nContig (Spec.mirrored hm (bot ++ [a]))) := by
    intro a hcg
    have hT : tailFrom bot c.nContig = bot.drop (bot.length - c.nContig) := by
      rw [tailFrom, if_pos (hcl hcg)]
    have hsplit : bot.take (bot.length - c.nContig) ++ tailFrom bot c.nContig = bot := by
      rw [hT, List.take_append_drop]
    have hlT : c.nContig ≤ (tailFrom bot c.nContig).length := by
      rw [hT, List.length_drop]; have := hcl hcg; omega
    have hok : Spec.ContigOK c.nContig (bot.take (bot.length - c.nContig) ++ tailFrom bot c.nContig) := by
      rw [hsplit]; exact hb.contig _ (by simp [optContig, hcg])
    rw [← contigOK_mirror_extend c.nContig (by have := hcn hcg; omega) _ _ _ hlT hok, hsplit]
    have e : bot ++ (if hm then [a] else [a, a]) ++ bot.reverse = Spec.mirrored hm (bot ++ [a]) := by
      cases hm <;> simp [Spec.mirrored]
    rw [e]
  have hk : ∀ l : List Int, c.contig = true → pruneContig l bot bot.length n c hm =
      .ok (l.filter (fun a => decide (Spec.ContigOK c.nContig (Spec.mirrored hm (bot ++ [a]))))) := by
    intro l hcg
    unfold pruneContig
    rw [if_neg (by omega), if_pos hs]
    apply keepIf_ok
    intro a _
    dsimp only
    have := hmirror a hcg
    have e : ∀ P Q : Prop, (P ↔ Q) → (decide P = decide Q) := fun P Q h => by simp [h]
    cases hm
    · rw [if_neg (by simp), internalContig2_eq _ c hcg (hc hcg).1 (hc hcg).2]
      congr 1
      exact e _ _ this
    · rw [if_pos rfl, internalContig2_eq _ c hcg (hc hcg).1 (hc hcg).2]
      congr 1
      exact e _ _ this
  have hinfix : ∀ a, (bot ++ [a]) <:+: Spec.mirrored hm (bot ++ [a]) := fun a => ⟨[], _, rfl⟩
  have hfeas : ∀ a ∈ ch, ((FeasiblePart c rule (bot ++ [a]) ∧
      (c.contig = true → Spec.ContigOK c.nContig (Spec.mirrored hm (bot ++ [a])))) ↔
      ((c.diso = true → bot.length > 0 →
        isDiso a (nth bot (bot.length - 1)) c.deltaAngle = true) ∧
      (c.contig = true → Spec.ContigOK c.nContig (Spec.mirrored hm (bot ++ [a]))))) := by
    intro a ha
    rw [feasible_snoc c rule bot a hb hcn hin (hch2 a ha)]
    constructor
    · rintro ⟨⟨_, _, _, g4, _⟩, g6⟩
      refine ⟨fun h _ => g4 h ?_, g6⟩
      split <;> omega
    · rintro ⟨g1, g2⟩
      refine ⟨⟨fun _ h => by omega, fun _ _ h => by omega, fun _ _ h => by omega,
        fun h _ => g1 h (by omega), fun hcg => ?_⟩, g2⟩
      have h1 := contigOK_infix (g2 hcg) (hinfix a)
      exact ((contigOK_append c.nContig (by have := hcn hcg; omega) _ _).1 h1).2.2
  have hfin : ch.filter (fun a => decide (FeasiblePart c rule (bot ++ [a]) ∧
      (c.contig = true → Spec.ContigOK c.nContig (Spec.mirrored hm (bot ++ [a]))))) =
      ch.filter (fun a => decide ((c.diso = true → bot.length > 0 →
        isDiso a (nth bot (bot.length - 1)) c.deltaAngle = true) ∧
      (c.contig = true → Spec.ContigOK c.nContig (Spec.mirrored hm (bot ++ [a]))))) := by
    apply List.filter_congr
    intro a ha
    rw [Bool.eq_iff_iff, decide_eq_true_eq, decide_eq_true_eq]
    exact hfeas a ha
  rw [hfin]
  unfold pruneRules
  rw [pruneDiso_sym _ _ _ _ _ _ hs]
  change (if _ then _ else _) = _
  by_cases hcg : c.contig = true
  · simp only [hcg, if_true, forall_const]
    split
    · rename_i h0
      have hnil := List.length_eq_zero_iff.1 h0.2
      have : ch.filter (fun a => decide ((c.diso = true → bot.length > 0 →
          isDiso a (nth bot (bot.length - 1)) c.deltaAngle = true) ∧
          Spec.ContigOK c.nContig (Spec.mirrored hm (bot ++ [a])))) = [] := by
        rw [List.filter_eq_nil_iff] at hnil ⊢
        intro a ha
        have := hnil a ha
        simp only [decide_eq_true_eq] at this ⊢
        tauto
      rw [this]; rfl
    · rw [hk _ hcg, List.filter_filter]
      simp only [bind, Except.bind, pure, Except.pure, Except.ok.injEq]
      congr 1
      apply List.filter_congr
      intro a _
      rw [Bool.eq_iff_iff]
      simp only [Bool.and_eq_true, decide_eq_true_eq]
      tauto
  · have e2 : ch.filter (fun a => decide ((c.diso = true → bot.length > 0 →
          isDiso a (nth bot (bot.length - 1)) c.deltaAngle = true) ∧
          (c.contig = true → Spec.ContigOK c.nContig (Spec.mirrored hm (bot ++ [a]))))) =
        ch.filter (fun a => decide (c.diso = true → bot.length > 0 →
          isDiso a (nth bot (bot.length - 1)) c.deltaAngle = true)) := by
      apply List.filter_congr
      intro a _
      rw [Bool.eq_iff_iff, decide_eq_true_eq, decide_eq_true_eq]
      exact ⟨fun h => h.1, fun h => ⟨h, fun h' => absurd h' hcg⟩⟩
    rw [e2]
    by_cases hd : c.diso = true
    · generalize ch.filter (fun a => decide (c.diso = true → bot.length > 0 →
          isDiso a (nth bot (bot.length - 1)) c.deltaAngle = true)) = l
      unfold noneIfEmpty
      by_cases hl : l.length = 0
      · rw [if_pos ⟨hd, hl⟩, if_pos hl]; rfl
      · rw [if_neg (fun h => hl h.2), if_neg hcg, if_neg hl]; rfl
    · have e : ch.filter (fun a => decide (c.diso = true → bot.length > 0 →
          isDiso a (nth bot (bot.length - 1)) c.deltaAngle = true)) = ch := by
        rw [List.filter_eq_self]; intro a _; simp [hd]
      rw [e, if_neg (fun h => hd h.1), if_neg hcg]
      have : ch.length ≠ 0 := by simpa using hne2
      rw [noneIfEmpty, if_neg this]; rfl

/-- C38: a half laminate satisfying the rules gives a complete symmetric laminate satisfying the
disorientation rule (outside the surface pairs exempted) and the damage tolerance rule. -/
theorem C38_half_to_full (c : Cons) (rule : Int) (h : Stack) (hm : Bool) (hd : 0 ≤ c.deltaAngle)
    (hl : 3 ≤ h.length) (hf : FeasiblePart c rule h) :
    Spec.Symmetric (Spec.mirrored hm h) ∧
    (c.diso = true → Spec.PairsWithin c.deltaAngle (Spec.mirrored hm h)
      (if c.damTol = true ∧ (rule = 2 ∨ rule = 3) then 1 else 0)
      ((Spec.mirrored hm h).length - 1 - (if c.damTol = true ∧ (rule = 2 ∨ rule = 3) then 1 else 0))) ∧
    (c.damTol = true → rule = 1 → Spec.DamTol1 (Spec.mirrored hm h)) ∧
    (c.damTol = true → rule = 2 → Spec.DamTol2 (Spec.mirrored hm h)) ∧
    (c.damTol = true → rule = 3 → Spec.DamTol3 (Spec.mirrored hm h)) := by
  have hlen : (Spec.mirrored hm h).length = 2 * h.length - (if hm then 1 else 0) := by
    cases hm <;> simp [Spec.mirrored] <;> omega
  have hsym : Spec.Symmetric (Spec.mirrored hm h) := by
    unfold Spec.Symmetric Spec.mirrored
    cases hm
    · simp
    · have hne : h ≠ [] := by rintro rfl; simp at hl
      have e := List.dropLast_append_getLast hne
      rw [if_pos rfl]
      conv_lhs => rw [← e]
      conv_rhs => rw [← e]
      simp
  have hlow : ∀ i, i < h.length → nth (Spec.mirrored hm h) i = nth h i := by
    intro i hi
    unfold Spec.mirrored nth
    rw [List.getD_append _ _ _ _ hi]
  have hhigh : ∀ i, i < (Spec.mirrored hm h).length →
      nth (Spec.mirrored hm h) ((Spec.mirrored hm h).length - 1 - i) = nth (Spec.mirrored hm h) i := by
    intro i hi
    have := nth_reverse (Spec.mirrored hm h) i hi
    rw [hsym] at this
    exact this.symm
  refine ⟨hsym, fun hdi => ?_, ?_⟩
  · have hp := hf.diso c.deltaAngle (by simp [optDiso, hdi])
    have hlo : (if optDamTol c rule = some 2 ∨ optDamTol c rule = some 3 then 1 else 0) =
        (if c.damTol = true ∧ (rule = 2 ∨ rule = 3) then 1 else 0) := by
      unfold optDamTol
      by_cases hd : c.damTol = true <;> simp [hd]
    rw [hlo] at hp
    generalize (if c.damTol = true ∧ (rule = 2 ∨ rule = 3) then 1 else 0) = lo at hp ⊢
    rw [pairsWithin_iff_nth] at hp ⊢
    intro i h1 h2 h3
    by_cases h4 : i + 1 < h.length
    · rw [hlow _ (by omega), hlow _ h4]
      exact hp i h1 (by omega) (by omega)
    · by_cases h5 : i + 1 = h.length ∧ hm = false
      · -- the two middle plies are equal
        have e1 := hhigh i (by omega)
        have h6 : (Spec.mirrored hm h).length - 1 - i = i + 1 := by
          rw [hlen]; rw [h5.2]; simp; omega
        rw [h6] at e1
        rw [e1]
        exact withinAngle_self hd
      · have h7 : (Spec.mirrored hm h).length - 1 - i < h.length := by
          rw [hlen] at h3 ⊢
          cases hm
          · simp at h5 h3 ⊢; omega
          · simp at h3 ⊢; omega
        have e1 := hhigh i (by omega)
        have e2 := hhigh (i + 1) (by omega)
        rw [← e1, ← e2, hlow _ h7, hlow _ (by omega)]
        have := hp ((Spec.mirrored hm h).length - 1 - (i + 1)) (by omega) (by omega) (by omega)
        rw [show (Spec.mirrored hm h).length - 1 - (i + 1) + 1 =
          (Spec.mirrored hm h).length - 1 - i by omega] at this
        exact withinAngle_comm this
  · obtain ⟨x, y, t, rfl⟩ : ∃ x y t, h = x :: y :: t := by
      match h, hl with
      | x :: y :: z :: t, _ => exact ⟨x, y, z :: t, rfl⟩
    obtain ⟨u, hu⟩ : ∃ u, Spec.mirrored hm (x :: y :: t) = x :: y :: u := ⟨_, rfl⟩
    have suf1 : [x] <:+ Spec.mirrored hm (x :: y :: t) := by
      rw [← hsym, hu]; exact ⟨u.reverse ++ [y], by simp⟩
    have suf2 : [y, x] <:+ Spec.mirrored hm (x :: y :: t) := by
      rw [← hsym, hu]; exact ⟨u.reverse, by simp⟩
    have pre1 : [x] <+: Spec.mirrored hm (x :: y :: t) := by rw [hu]; exact ⟨y :: u, rfl⟩
    have pre2 : [x, y] <+: Spec.mirrored hm (x :: y :: t) := by rw [hu]; exact ⟨u, rfl⟩
    have neg45 : ∀ z, Spec.PM45 z → Spec.PM45 (-z) := by
      rintro z (rfl | rfl)
      · right; rfl
      · left; rfl
    refine ⟨fun hdt _ => ?_, fun hdt hr => ?_, fun hdt hr => ?_⟩
    · have o := hf.outer (by simp [optDamTol, hdt]) x rfl
      exact ⟨⟨x, o, pre1⟩, ⟨x, o, suf1⟩⟩
    · have o := hf.outer (by simp [optDamTol, hdt]) x rfl
      have s := hf.second2 (by simp [optDamTol, hdt, hr]) x y rfl rfl
      subst s
      refine ⟨⟨x, o, pre2⟩, ⟨-x, neg45 x o, ?_⟩⟩
      rw [neg_neg]; exact suf2
    · have o := hf.outer (by simp [optDamTol, hdt]) x rfl
      have s := hf.second3 (by simp [optDamTol, hdt, hr]) y rfl
      exact ⟨⟨x, y, o, s, pre2⟩, ⟨y, x, s, o, suf2⟩⟩

end

/-- C38, violation: with fewer than `n_contig` plies before the last one, the window is cut at the
wrong place and a laminate of ten equal plies passes a limit of five. -/
theorem C38_pruning_last_violation : ∃ (a : ConsArgs) (c : Cons), mkConstraints a = .ok c ∧
    c.sym = true ∧ c.contig = true ∧ c.nContig = 5 ∧
    pruning [0, 90] [0, 0, 0, 0] [] 4 5 c 2 false = .ok (some [0, 90]) ∧
    ¬ Spec.ContigOK 5 (Spec.mirrored false ([0, 0, 0, 0] ++ [0])) := by
  obtain ⟨c, hc, ht⟩ := ok_of_test (mkConstraints { sym := true, contig := true, nContig := 5 })
    (fun c => decide (c.sym = true ∧ c.contig = true ∧ c.nContig = 5 ∧
      pruning [0, 90] [0, 0, 0, 0] [] 4 5 c 2 false = .ok (some [0, 90]))) (by decide +kernel)
  simp only [decide_eq_true_eq] at ht
  refine ⟨_, c, hc, ht.1, ht.2.1, ht.2.2.1, ht.2.2.2, fun h => h 0 ?_⟩
  exact ⟨[], [0, 0, 0, 0], rfl⟩

/-- C38, violation: for asymmetric laminates with contiguity and without damage tolerance, the
pruning at the ply of highest index always fails with a type error (unless no orientation is left
by the disorientation rule). -/
theorem C38_pruning_asymmetric_violation (c : Cons) (rule : Int) (child : List Int) (bot top : Stack)
    (n : Nat) (hm : Bool) (hs : c.sym = false) (hd : c.damTol = false) (hcg : c.contig = true)
    (hdi : c.diso = false) (hne : child ≠ []) :
    pruning child bot top (n - 1) n c rule hm = .error .typeError := by
  have : child.length ≠ 0 := by simpa using hne
  have e : pruneDiso child bot top (n - 1) n c = .ok child := by simp [pruneDiso, hdi]
  have e2 : pruneContig child bot (n - 1) n c hm = .error .typeError := by
    simp [pruneContig, hs, hne]
  have e3 : pruning child bot top (n - 1) n c rule hm = pruneRules child bot top (n - 1) n c hm := by
    simp [pruning, hs, hd]
  rw [e3, pruneRules, e]
  change (if _ then _ else _) = _
  rw [if_neg (by simp [hdi]), if_pos hcg, e2]
  rfl

/-- C38, violation: with damage tolerance rule 3 and disorientation below 90 degrees, the second ply
is forced to the opposite of the first one: the pair `[45, 45]` (that satisfies both rules) is
discarded, and the only one kept does not satisfy the disorientation rule. -/
theorem C38_rule3_violation (c : Cons) (child : List Int) (a : Int) (top : Stack) (n : Nat) (hm : Bool)
    (hs : c.sym = true) (hd : c.damTol = true) (hdi : c.diso = true) (h90 : c.deltaAngle < 90)
    (ha : Spec.PM45 a) (hn : 2 < n) (r : List Int)
    (h : pruning child [a] top 1 n c 3 hm = .ok (some r)) :
    ∀ x ∈ r, x = -a ∧ ¬ Spec.WithinAngle c.deltaAngle a x := by
  have hmid : ¬ (c.sym = true ∧ 1 = n - 1 ∧ hm = true) := by rintro ⟨_, h, _⟩; omega
  have e : pruning child [a] top 1 n c 3 hm = .ok (noneIfEmpty (damTolSecond 3 c a child)) := by
    unfold pruning
    simp only [hmid, if_false]
    rw [if_pos hd, if_neg (by simp [hs]), if_pos (by simp)]
    rfl
  rw [e, Except.ok.injEq] at h
  have hiso : isDiso (-45) 45 c.deltaAngle = false := by
    rw [Bool.eq_false_iff]; intro h; have := (isDiso_pm45 _).1 h; omega
  have h2 : damTolSecond 3 c a child = r := by
    unfold noneIfEmpty at h
    split at h
    · cases h
    · simpa using h
  intro x hx
  rw [← h2] at hx
  simp only [damTolSecond, show ¬ ((3 : Int) = 2) by omega, if_false, if_true, hdi, hiso,
    Bool.not_false, Bool.and_true, Bool.not_true, Bool.false_or, List.mem_filter, Bool.and_eq_true,
    beq_iff_eq] at hx
  refine ⟨hx.2.2, ?_⟩
  rw [hx.2.2]
  rintro ⟨k, hk⟩
  rw [abs_le] at hk
  rcases ha with rfl | rfl <;> omega

/-- The hypotheses of the pruning theorems are met by a real constraint object, with orientations
kept and discarded. -/
example : ∃ (a : ConsArgs) (c : Cons), mkConstraints a = .ok c ∧ c.sym = true ∧ c.damTol = true ∧
    pruning [-45, 0, 45, 90] [45, -45, 0] [] 3 9 c 2 false = .ok (some [-45, 0, 45]) ∧
    pruning [-45, 0, 45, 90] [45, -45, 0, 0] [] 4 9 c 2 false = .ok (some [-45, 45]) ∧
    pruning [-45, 0, 45, 90] [45, -45, 0, 45] [] 4 5 c 2 false = .ok (some [0, 90]) ∧
    pruning [-45, 0, 45, 90] [45, -45, 90, -45, 0, 45] [] 6 7 c 2 true = .ok (some [0, 90]) ∧
    pruning [-45, 0, 45, 90] [45] [] 1 9 c 2 false = .ok (some [-45]) := by
  obtain ⟨c, hc, ht⟩ := ok_of_test (mkConstraints
      { sym := true, contig := true, nContig := 2, diso := true, damTol := true })
    (fun c => decide (c.sym = true ∧ c.damTol = true ∧
    pruning [-45, 0, 45, 90] [45, -45, 0] [] 3 9 c 2 false = .ok (some [-45, 0, 45]) ∧
    pruning [-45, 0, 45, 90] [45, -45, 0, 0] [] 4 9 c 2 false = .ok (some [-45, 45]) ∧
    pruning [-45, 0, 45, 90] [45, -45, 0, 45] [] 4 5 c 2 false = .ok (some [0, 90]) ∧
    pruning [-45, 0, 45, 90] [45, -45, 90, -45, 0, 45] [] 6 7 c 2 true = .ok (some [0, 90]) ∧
    pruning [-45, 0, 45, 90] [45] [] 1 9 c 2 false = .ok (some [-45]))) (by decide +kernel)
  simp only [decide_eq_true_eq] at ht
  exact ⟨_, c, hc, ht⟩

end Bella
