import Verif.Proofs.SubsetSum
/-
Lemmas on `subset_sum_next` of src/divers/subset_sum.py.
-/
namespace Bella

open Spec

/-! ### The search of all the subsets as one loop -/

/-- What remains of the calls of `subset_sum_next` from inside its loop. -/
def contLoop (s : Int) (v : List Int) (c f : Nat) (u : List Int) (t : Int) : Option (Py (List (List Int))) :=
  match sumNextLoop s v f u t with
  | none => none
  | some (.error e) => some (.error e)
  | some (.ok (more, u, t)) =>
    if !more then some (.ok [])
    else
      match subsetSumAll s v c more u t with
      | some (.ok l) => some (.ok (u :: l))
      | other => other

/-- What remains of the calls of `subset_sum_next` before going back. -/
def contBack (s : Int) (v : List Int) (c f : Nat) (u : List Int) (t : Int) : Option (Py (List (List Int))) :=
  match backTrack u t with
  | .error e => some (.error e)
  | .ok (u, t) => if t < 0 then some (.ok []) else contLoop s v c f u t

theorem subsetSumAll_more (s : Int) (v : List Int) (k : Nat) (u : List Int) (t : Int) :
    subsetSumAll s v (k + 1) true u t = contBack s v k k u t := by
  unfold contBack contLoop
  rw [subsetSumAll]
  unfold subsetSumNext
  simp only [Bool.not_true, Bool.false_eq_true, if_false]
  cases h : backTrack u t with
  | error e => rfl
  | ok r =>
    obtain ⟨u', t'⟩ := r
    simp only
    by_cases ht : t' < 0
    · rw [if_pos ht, if_pos ht]; rfl
    · rw [if_neg ht, if_neg ht]; rfl

theorem subsetSumAll_first (s : Int) (v : List Int) (k : Nat) (u : List Int) (t : Int) :
    subsetSumAll s v (k + 1) false u t = contLoop s v k k (List.replicate v.length 0) (-1) := by
  unfold contLoop
  rw [subsetSumAll]
  unfold subsetSumNext
  simp only [Bool.not_false, if_true]
  rfl

/-- The calls end, with the subsets `out`, for all large bounds. -/
def Ends (X : Nat → Nat → Option (Py (List (List Int)))) (out : List (List Int)) : Prop :=
  ∃ F, ∀ c f, F ≤ c → F ≤ f → X c f = some (.ok out)

theorem ends_deeper {s su : Int} {v u u' : List Int} {t : Int} {out : List (List Int)} (hd : npDot u v = .ok su)
    (h1 : su < s ∧ t < (v.length : Int) - 1) (h2 : setEntry u (t + 1) 1 = .ok u')
    (h : Ends (fun c f => contLoop s v c f u' (t + 1)) out) : Ends (fun c f => contLoop s v c f u t) out := by
  obtain ⟨F, hF⟩ := h
  refine ⟨F + 1, fun c f hc hf => ?_⟩
  obtain ⟨f, rfl⟩ : ∃ f', f = f' + 1 := ⟨f - 1, by omega⟩
  rw [← hF c f (by omega) (by omega)]
  show contLoop s v c (f + 1) u t = contLoop s v c f u' (t + 1)
  unfold contLoop
  rw [sumNextLoop, hd]
  simp only
  rw [if_pos h1, h2]

theorem ends_found {s : Int} {v u : List Int} {t : Int} {out : List (List Int)} (hd : npDot u v = .ok s)
    (h : Ends (fun c f => contBack s v c f u t) out) : Ends (fun c f => contLoop s v c f u t) (u :: out) := by
  obtain ⟨F, hF⟩ := h
  refine ⟨F + 1, fun c f hc hf => ?_⟩
  obtain ⟨f, rfl⟩ : ∃ f', f = f' + 1 := ⟨f - 1, by omega⟩
  obtain ⟨c, rfl⟩ : ∃ c', c = c' + 1 := ⟨c - 1, by omega⟩
  have := hF c c (by omega) (by omega)
  simp only [contLoop]
  rw [sumNextLoop, hd]
  simp only
  rw [if_neg (by omega), if_pos trivial]
  simp only [Bool.not_true, Bool.false_eq_true, if_false]
  rw [subsetSumAll_more]
  simp only at this
  rw [this]

theorem ends_back {s su : Int} {v u : List Int} {t : Int} {out : List (List Int)} (hd : npDot u v = .ok su)
    (h1 : ¬ (su < s ∧ t < (v.length : Int) - 1)) (h2 : su ≠ s)
    (h : Ends (fun c f => contBack s v c f u t) out) : Ends (fun c f => contLoop s v c f u t) out := by
  obtain ⟨F, hF⟩ := h
  refine ⟨F + 1, fun c f hc hf => ?_⟩
  obtain ⟨f, rfl⟩ : ∃ f', f = f' + 1 := ⟨f - 1, by omega⟩
  rw [← hF c f (by omega) (by omega)]
  show contLoop s v c (f + 1) u t = contBack s v c f u t
  unfold contLoop contBack
  rw [sumNextLoop, hd]
  simp only
  rw [if_neg h1, if_neg h2]
  cases hb : backTrack u t with
  | error e => rfl
  | ok r =>
    obtain ⟨u', t'⟩ := r
    simp only
    by_cases ht : t' < 0
    · rw [if_pos ht, if_pos ht]; rfl
    · rw [if_neg ht, if_neg ht]; rfl

/-! ### Entries of the vector -/

theorem setEntry_at (P Q : List Int) (y z : Int) : setEntry (P ++ y :: Q) (P.length : Int) z = .ok (P ++ z :: Q) := by
  unfold setEntry
  rw [if_pos (by omega), Int.toNat_natCast, if_pos (by simp)]
  simp

theorem setEntry_succ (P Q : List Int) (a y z : Int) :
    setEntry (P ++ a :: y :: Q) ((P.length : Int) + 1) z = .ok (P ++ a :: z :: Q) := by
  have := setEntry_at (P ++ [a]) Q y z
  simpa using this

theorem backupOne_one (P Q : List Int) : backupOne (P ++ 1 :: Q) (P.length + 1) = (P.length : Int) := by
  rw [backupOne, if_pos]
  simp

theorem backupOne_zero (P Q : List Int) : backupOne (P ++ 0 :: Q) (P.length + 1) = backupOne (P ++ 0 :: Q) P.length := by
  rw [backupOne, if_neg]
  simp

theorem contBack_congr (s : Int) (v : List Int) (c f : Nat) (P Q : List Int) (y y' : Int) :
    contBack s v c f (P ++ y :: Q) P.length = contBack s v c f (P ++ y' :: Q) P.length := by
  unfold contBack backTrack
  rw [setEntry_at, setEntry_at]

theorem contBack_zero (s : Int) (v : List Int) (c f : Nat) (P Q : List Int) :
    contBack s v c f (P ++ 0 :: 0 :: Q) ((P.length : Int) + 1) = contBack s v c f (P ++ 0 :: 0 :: Q) P.length := by
  have h : backTrack (P ++ 0 :: 0 :: Q) ((P.length : Int) + 1) = backTrack (P ++ 0 :: 0 :: Q) P.length := by
    unfold backTrack
    rw [setEntry_succ, setEntry_at]
    simp only [bind, Except.bind]
    have h1 : ((P.length : Int) + 1).toNat = P.length + 1 := by omega
    have h2 : ((P.length : Int)).toNat = P.length := by omega
    rw [h1, h2, backupOne_zero]
  unfold contBack
  rw [h]

theorem contBack_one (s : Int) (v : List Int) (c f : Nat) (P Q : List Int) :
    contBack s v c f (P ++ 1 :: 0 :: Q) ((P.length : Int) + 1) = contLoop s v c f (P ++ 0 :: 1 :: Q) ((P.length : Int) + 1) := by
  have h : backTrack (P ++ 1 :: 0 :: Q) ((P.length : Int) + 1) = .ok (P ++ 0 :: 1 :: Q, (P.length : Int) + 1) := by
    unfold backTrack
    rw [setEntry_succ]
    simp only [bind, Except.bind]
    have h1 : ((P.length : Int) + 1).toNat = P.length + 1 := by omega
    rw [h1, backupOne_one, if_neg (by omega), setEntry_at]
    simp only
    rw [setEntry_succ]
    rfl
  unfold contBack
  rw [h]
  simp only
  rw [if_neg (by omega)]

/-! ### The subsets found -/

/-- The subsets that the search finds from the prefix `P`, of sum `d`, with at least one of the values left. -/
def subSols (s : Int) : List Int → Int → List Int → List (List Int)
  | _, _, [] => []
  | P, d, x :: rest =>
    if d + x < s ∧ rest ≠ [] then subSols s (P ++ [1]) (d + x) rest ++ subSols s (P ++ [0]) d rest
    else if d + x = s then [P ++ 1 :: List.replicate rest.length 0] else []

/-- Sum of the products. -/
def dotSum (u v : List Int) : Int := (List.zipWith (fun (x y : Int) => x * y) u v).sum

theorem dotSum_zeros : ∀ (v : List Int) (m : Nat), dotSum (List.replicate m 0) v = 0
  | [], m => by simp [dotSum]
  | x :: v, 0 => by simp [dotSum]
  | x :: v, m + 1 => by
    have := dotSum_zeros v m
    simp only [dotSum] at this
    simp [dotSum, List.replicate_succ, this]

theorem dotSum_cons (a x : Int) (u v : List Int) : dotSum (a :: u) (x :: v) = a * x + dotSum u v := by simp [dotSum]

theorem dotSum_append (P vP u v : List Int) (h : P.length = vP.length) :
    dotSum (P ++ u) (vP ++ v) = dotSum P vP + dotSum u v := by
  simp [dotSum, List.zipWith_append h]

theorem npDot_visit {P vP : List Int} {x : Int} {rest : List Int} (h : P.length = vP.length) :
    npDot (P ++ 1 :: List.replicate rest.length 0) (vP ++ x :: rest) = .ok (dotSum P vP + x) := by
  unfold npDot
  rw [if_pos (by simp [h])]
  have := dotSum_append P vP (1 :: List.replicate rest.length 0) (x :: rest) h
  rw [dotSum_cons, dotSum_zeros, one_mul, add_zero] at this
  rw [← this]
  rfl

theorem visit_ends {s : Int} : ∀ (rest P vP : List Int) (x : Int) (out : List (List Int)), P.length = vP.length →
    Ends (fun c f => contBack s (vP ++ x :: rest) c f (P ++ 0 :: List.replicate rest.length 0) P.length) out →
    Ends (fun c f => contLoop s (vP ++ x :: rest) c f (P ++ 1 :: List.replicate rest.length 0) P.length)
      (subSols s P (dotSum P vP) (x :: rest) ++ out) := by
  intro rest
  induction rest with
  | nil =>
    intro P vP x out hP h
    have hd := npDot_visit (x := x) (rest := []) hP
    have h' : Ends (fun c f => contBack s (vP ++ [x]) c f (P ++ 1 :: List.replicate ([] : List Int).length 0) P.length) out := by
      obtain ⟨F, hF⟩ := h
      exact ⟨F, fun c f hc hf => (contBack_congr s _ c f P _ 1 0).trans (hF c f hc hf)⟩
    unfold subSols
    rw [if_neg (by simp)]
    by_cases h1 : dotSum P vP + x = s
    · rw [if_pos h1]
      exact ends_found (by rw [hd, h1]) h'
    · rw [if_neg h1]
      exact ends_back hd (by simp [hP]) h1 h'
  | cons y rest ih =>
    intro P vP x out hP h
    have hd := npDot_visit (x := x) (rest := y :: rest) hP
    unfold subSols
    by_cases h1 : dotSum P vP + x < s
    · rw [if_pos ⟨h1, by simp⟩]
      have e : vP ++ x :: y :: rest = (vP ++ [x]) ++ y :: rest := by simp
      have hz : Ends (fun c f => contLoop s (vP ++ x :: y :: rest) c f ((P ++ [0]) ++ 1 :: List.replicate rest.length 0)
          (P ++ [0]).length) (subSols s (P ++ [0]) (dotSum P vP) (y :: rest) ++ out) := by
        have hb : Ends (fun c f => contBack s ((vP ++ [x]) ++ y :: rest) c f ((P ++ [0]) ++ 0 :: List.replicate rest.length 0)
            (P ++ [0]).length) out := by
          obtain ⟨F, hF⟩ := h
          refine ⟨F, fun c f hc hf => ?_⟩
          rw [← hF c f hc hf, ← e]
          have := contBack_zero s (vP ++ x :: y :: rest) c f P (List.replicate rest.length 0)
          simpa [List.replicate_succ] using this
        have h2 := ih (P ++ [0]) (vP ++ [x]) y out (by simp [hP]) hb
        rw [dotSum_append P vP [0] [x] hP] at h2
        simp only [dotSum_cons, zero_mul] at h2
        rw [show dotSum ([] : List Int) [] = 0 from rfl, add_zero, add_zero, ← e] at h2
        exact h2
      have ho : Ends (fun c f => contLoop s (vP ++ x :: y :: rest) c f ((P ++ [1]) ++ 1 :: List.replicate rest.length 0)
          (P ++ [1]).length) (subSols s (P ++ [1]) (dotSum P vP + x) (y :: rest) ++
            (subSols s (P ++ [0]) (dotSum P vP) (y :: rest) ++ out)) := by
        have hb : Ends (fun c f => contBack s ((vP ++ [x]) ++ y :: rest) c f ((P ++ [1]) ++ 0 :: List.replicate rest.length 0)
            (P ++ [1]).length) (subSols s (P ++ [0]) (dotSum P vP) (y :: rest) ++ out) := by
          obtain ⟨F, hF⟩ := hz
          refine ⟨F, fun c f hc hf => ?_⟩
          rw [← hF c f hc hf, ← e]
          have := contBack_one s (vP ++ x :: y :: rest) c f P (List.replicate rest.length 0)
          simpa using this
        have h2 := ih (P ++ [1]) (vP ++ [x]) y _ (by simp [hP]) hb
        rw [dotSum_append P vP [1] [x] hP] at h2
        simp only [dotSum_cons, one_mul] at h2
        rw [show dotSum ([] : List Int) [] = 0 from rfl, add_zero, ← e] at h2
        exact h2
      rw [List.append_assoc]
      refine ends_deeper hd ⟨h1, by simp [hP]; omega⟩ (u' := (P ++ [1]) ++ 1 :: List.replicate rest.length 0) ?_ ?_
      · have := setEntry_succ P (List.replicate rest.length 0) 1 0 1
        simpa [List.replicate_succ] using this
      · simpa using ho
    · rw [if_neg (fun hh => h1 hh.1)]
      have h' : Ends (fun c f => contBack s (vP ++ x :: y :: rest) c f (P ++ 1 :: List.replicate (y :: rest).length 0) P.length) out := by
        obtain ⟨F, hF⟩ := h
        exact ⟨F, fun c f hc hf => (contBack_congr s _ c f P _ 1 0).trans (hF c f hc hf)⟩
      by_cases h2 : dotSum P vP + x = s
      · rw [if_pos h2]
        exact ends_found (by rw [hd, h2]) h'
      · rw [if_neg h2]
        exact ends_back hd (fun hh => h1 hh.1) h2 h'

/-- The subsets found by the successive calls. -/
def allSols (s : Int) (v : List Int) : List (List Int) :=
  if 0 < s then subSols s [] 0 v else if s = 0 then [List.replicate v.length 0] else []

theorem subsetSumAll_ends {s : Int} {v : List Int} (hv : v ≠ []) (u : List Int) (t : Int) :
    ∃ F, ∀ fuel, F ≤ fuel → subsetSumAll s v fuel false u t = some (.ok (allSols s v)) := by
  obtain ⟨x, rest, rfl⟩ := List.exists_cons_of_ne_nil hv
  have hdot : npDot (List.replicate (x :: rest).length 0) (x :: rest) = .ok 0 := by
    unfold npDot
    rw [if_pos (by simp)]
    exact congrArg _ (dotSum_zeros _ _)
  have hback : ∀ c f, contBack s (x :: rest) c f (List.replicate (x :: rest).length 0) (-1) = some (.ok []) := by
    intro c f
    have : backTrack (List.replicate (x :: rest).length 0) (-1) = .ok (List.replicate (x :: rest).length 0, -1) := by
      unfold backTrack setEntry
      rw [if_neg (by omega), if_pos (by simp)]
      simp only [bind, Except.bind]
      rw [show (-1 : Int).toNat = 0 from rfl, backupOne, if_pos (by omega)]
      simp [List.set_replicate_self, pure, Except.pure]
    unfold contBack
    rw [this]
    rfl
  have main : Ends (fun c f => contLoop s (x :: rest) c f (List.replicate (x :: rest).length 0) (-1)) (allSols s (x :: rest)) := by
    unfold allSols
    by_cases h1 : 0 < s
    · rw [if_pos h1]
      refine ends_deeper hdot ⟨h1, by simp; omega⟩ (u' := 1 :: List.replicate rest.length 0) ?_ ?_
      · have := setEntry_at [] (List.replicate rest.length 0) 0 1
        simpa [List.replicate_succ] using this
      · have h2 := visit_ends (s := s) rest [] [] x [] rfl ⟨0, fun c f _ _ => ?_⟩
        · simpa [dotSum] using h2
        · have : backTrack ([] ++ 0 :: List.replicate rest.length 0) (([] : List Int).length : Int) =
              .ok (0 :: List.replicate rest.length 0, -1) := by
            unfold backTrack
            rw [setEntry_at]
            rfl
          unfold contBack
          rw [this]
          rfl
    · rw [if_neg h1]
      by_cases h2 : s = 0
      · subst h2
        rw [if_pos rfl]
        exact ends_found hdot ⟨0, fun c f _ _ => hback c f⟩
      · rw [if_neg h2]
        exact ends_back hdot (fun hh => h1 hh.1) (Ne.symm h2) ⟨0, fun c f _ _ => hback c f⟩
  obtain ⟨F, hF⟩ := main
  refine ⟨F + 1, fun fuel hf => ?_⟩
  obtain ⟨k, rfl⟩ : ∃ k, fuel = k + 1 := ⟨fuel - 1, by omega⟩
  rw [subsetSumAll_first]
  exact hF k k (by omega) (by omega)

/-! ### Soundness and completeness -/

/-- A vector of zeros and ones. -/
def IsBits (u : List Int) : Prop := ∀ x ∈ u, x = 0 ∨ x = 1

theorem isBits_zeros (n : Nat) : IsBits (List.replicate n 0) := fun x hx => Or.inl (List.eq_of_mem_replicate hx)

theorem subSols_sound {s : Int} : ∀ (v P : List Int) (d : Int) (u : List Int), u ∈ subSols s P d v →
    ∃ b, u = P ++ b ∧ b.length = v.length ∧ IsBits b ∧ 1 ∈ b ∧ d + dotSum b v = s
  | [], P, d, u, h => by simp [subSols] at h
  | x :: rest, P, d, u, h => by
    unfold subSols at h
    by_cases h1 : d + x < s ∧ rest ≠ []
    · rw [if_pos h1, List.mem_append] at h
      rcases h with h | h
      · obtain ⟨b, h2, h3, h4, h5, h6⟩ := subSols_sound rest _ _ u h
        refine ⟨1 :: b, by simp [h2], by simp [h3], ?_, by simp, by rw [dotSum_cons]; linarith⟩
        intro z hz
        rcases List.mem_cons.1 hz with hz | hz
        · exact Or.inr hz
        · exact h4 z hz
      · obtain ⟨b, h2, h3, h4, h5, h6⟩ := subSols_sound rest _ _ u h
        refine ⟨0 :: b, by simp [h2], by simp [h3], ?_, by simp [h5], by rw [dotSum_cons]; linarith⟩
        intro z hz
        rcases List.mem_cons.1 hz with hz | hz
        · exact Or.inl hz
        · exact h4 z hz
    · rw [if_neg h1] at h
      by_cases h2 : d + x = s
      · rw [if_pos h2, List.mem_singleton] at h
        refine ⟨1 :: List.replicate rest.length 0, h, by simp, ?_, by simp, by rw [dotSum_cons, dotSum_zeros]; linarith⟩
        intro z hz
        rcases List.mem_cons.1 hz with hz | hz
        · exact Or.inr hz
        · exact isBits_zeros _ z hz
      · rw [if_neg h2] at h
        simp at h

theorem subSols_nodup {s : Int} : ∀ (v P : List Int) (d : Int), (subSols s P d v).Nodup
  | [], P, d => by simp [subSols]
  | x :: rest, P, d => by
    unfold subSols
    by_cases h1 : d + x < s ∧ rest ≠ []
    · rw [if_pos h1, List.nodup_append]
      refine ⟨subSols_nodup rest _ _, subSols_nodup rest _ _, fun a ha b hb hab => ?_⟩
      subst hab
      obtain ⟨b1, h2, _⟩ := subSols_sound rest _ _ a ha
      obtain ⟨b2, h3, _⟩ := subSols_sound rest _ _ a hb
      rw [h2, List.append_assoc, List.append_assoc] at h3
      simpa using h3
    · rw [if_neg h1]
      split_ifs <;> simp

theorem dotSum_nonneg : ∀ (b v : List Int), IsBits b → (∀ x ∈ v, 0 ≤ x) → 0 ≤ dotSum b v
  | [], v, _, _ => by simp [dotSum]
  | _ :: _, [], _, _ => by simp [dotSum]
  | a :: b, x :: v, hb, hv => by
    rw [dotSum_cons]
    have h1 := dotSum_nonneg b v (fun z hz => hb z (by simp [hz])) (fun z hz => hv z (by simp [hz]))
    have h2 := hv x (by simp)
    rcases hb a (by simp) with h3 | h3 <;> subst h3 <;> linarith

theorem dotSum_pos {x : Int} : ∀ (b v : List Int), b.length = v.length → IsBits b → 1 ∈ b → (∀ y ∈ v, x < y) → 0 ≤ x →
    x < dotSum b v
  | [], v, _, _, h1, _, _ => by simp at h1
  | a :: b, [], hl, _, _, _, _ => by simp at hl
  | a :: b, y :: v, hl, hb, h1, hv, hx => by
    rw [dotSum_cons]
    have hb' : IsBits b := fun z hz => hb z (by simp [hz])
    have hv' : ∀ z ∈ v, x < z := fun z hz => hv z (by simp [hz])
    have hy := hv y (by simp)
    rcases hb a (by simp) with h3 | h3
    · subst h3
      have := dotSum_pos b v (by simpa using hl) hb' (by simpa using h1) hv' hx
      linarith
    · subst h3
      have := dotSum_nonneg b v hb' (fun z hz => by have := hv' z hz; omega)
      linarith

theorem zeros_of_bits : ∀ {b : List Int}, IsBits b → ¬ 1 ∈ b → b = List.replicate b.length 0 := by
  intro b hb h
  refine List.eq_replicate_iff.2 ⟨rfl, fun x hx => ?_⟩
  rcases hb x hx with h1 | h1
  · exact h1
  · subst h1; exact absurd hx h

theorem subSols_complete {s : Int} : ∀ (v P : List Int) (d : Int) (b : List Int), v.Pairwise (· < ·) → (∀ x ∈ v, 0 ≤ x) →
    b.length = v.length → IsBits b → 1 ∈ b → d + dotSum b v = s → P ++ b ∈ subSols s P d v
  | [], P, d, b, _, _, hl, _, h1, _ => by
    rw [List.length_nil, List.length_eq_zero_iff] at hl; subst hl; simp at h1
  | x :: rest, P, d, [], _, _, hl, _, _, _ => by simp at hl
  | x :: rest, P, d, a :: b, hp, hv, hl, hb, h1, hs => by
    have hb' : IsBits b := fun z hz => hb z (by simp [hz])
    have hl' : b.length = rest.length := by simpa using hl
    have hv' : ∀ z ∈ rest, 0 ≤ z := fun z hz => hv z (by simp [hz])
    obtain ⟨hx, hp'⟩ := List.pairwise_cons.1 hp
    have hx0 := hv x (by simp)
    rw [dotSum_cons] at hs
    unfold subSols
    by_cases hc : d + x < s ∧ rest ≠ []
    · rw [if_pos hc, List.mem_append]
      rcases hb a (by simp) with h3 | h3
      · subst h3
        right
        have := subSols_complete (s := s) rest (P ++ [0]) d b hp' hv' hl' hb' (by simpa using h1) (by linarith)
        simpa using this
      · subst h3
        left
        have h1b : 1 ∈ b := by
          by_contra hcon
          rw [zeros_of_bits hb' hcon, dotSum_zeros] at hs
          omega
        have := subSols_complete (s := s) rest (P ++ [1]) (d + x) b hp' hv' hl' hb' h1b (by linarith)
        simpa using this
    · rw [if_neg hc]
      by_cases hr : rest = []
      · subst hr
        have : b = [] := by simpa using hl'
        subst this
        have ha : a = 1 := (List.mem_singleton.1 h1).symm
        subst ha
        rw [if_pos (by simpa [dotSum] using hs)]
        simp
      · have hc' : s ≤ d + x := by
          by_contra hcon
          exact hc ⟨by omega, hr⟩
        rcases hb a (by simp) with h3 | h3
        · subst h3
          have := dotSum_pos b rest hl' hb' (by simpa using h1) hx hx0
          omega
        · subst h3
          have h1b : ¬ 1 ∈ b := by
            intro hcon
            have := dotSum_pos b rest hl' hb' hcon hx hx0
            omega
          have hz := zeros_of_bits hb' h1b
          rw [hz, dotSum_zeros] at hs
          rw [if_pos (by linarith), List.mem_singleton, hz, hl']

theorem chosen_dotSum : ∀ (u v : List Int), IsBits u → (chosen (u.map (· == 1)) v).sum = dotSum u v
  | [], v, _ => by simp [chosen, dotSum]
  | a :: u, [], _ => by
    rcases h : (a == 1) with _ | _ <;> simp [chosen, dotSum, h]
  | a :: u, x :: v, h => by
    have ih := chosen_dotSum u v (fun z hz => h z (by simp [hz]))
    rw [dotSum_cons]
    rcases h a (by simp) with h1 | h1
    · subst h1
      simp [chosen, ih]
    · subst h1
      simp [chosen, ih]

end Bella
