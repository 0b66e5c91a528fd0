import Verif.Model.ViolaCount
import Verif.Proofs.Diso
import Verif.Proofs.Monad
import Verif.Spec.Levels
/-
Lemmas on the number of violations of a laminate made of several parts.
-/
namespace Bella

open Classical in
/-- One violation at the junction of two parts. -/
noncomputable def crossDiso (d : Int) (s t : Stack) : Nat :=
  match s.getLast?, t.head? with
  | some a, some b => if Spec.WithinAngle d a b then 0 else 1
  | _, _ => 0

open Classical in
theorem disoViolations_cons (d a b : Int) (t : Stack) :
    Spec.disoViolations d (a :: b :: t) = (if Spec.WithinAngle d a b then 0 else 1) + Spec.disoViolations d (b :: t) := by
  unfold Spec.disoViolations
  rw [List.tail_cons, List.zip_cons_cons, List.countP_cons, List.tail_cons]
  by_cases h : Spec.WithinAngle d a b
  · simp [h]
  · simp [h]; omega

theorem disoViolations_nil (d : Int) : Spec.disoViolations d [] = 0 := rfl

theorem disoViolations_one (d a : Int) : Spec.disoViolations d [a] = 0 := rfl

theorem disoViolations_append (d : Int) : ∀ s t : Stack,
    Spec.disoViolations d (s ++ t) = Spec.disoViolations d s + Spec.disoViolations d t + crossDiso d s t
  | [], t => by simp [disoViolations_nil, crossDiso]
  | [a], [] => by simp [disoViolations_nil, crossDiso, disoViolations_one]
  | [a], b :: t => by
    rw [List.singleton_append, disoViolations_cons, disoViolations_one]
    simp [crossDiso]; omega
  | a :: b :: s, t => by
    have := disoViolations_append d (b :: s) t
    rw [List.cons_append, List.cons_append, disoViolations_cons, ← List.cons_append, this, disoViolations_cons]
    have : crossDiso d (a :: b :: s) t = crossDiso d (b :: s) t := by
      unfold crossDiso; rw [List.getLast?_cons_cons]
    omega

theorem disoViolations_cons' (d c : Int) (t : Stack) :
    Spec.disoViolations d (c :: t) = Spec.disoViolations d t + crossDiso d [c] t := by
  have := disoViolations_append d [c] t
  rw [disoViolations_one] at this
  rw [← List.singleton_append, this]; omega

theorem crossDiso_nil (d : Int) (s : Stack) : crossDiso d s [] = 0 := by
  unfold crossDiso
  cases s.getLast? <;> rfl

theorem within_comm (d a b : Int) : Spec.WithinAngle d a b ↔ Spec.WithinAngle d b a := by
  unfold Spec.WithinAngle
  constructor <;> rintro ⟨k, hk⟩ <;> refine ⟨-k, ?_⟩ <;> rw [abs_le] at * <;> omega

theorem crossDiso_comm (d : Int) (s t : Stack) : crossDiso d t.reverse s.reverse = crossDiso d s t := by
  unfold crossDiso
  rw [List.getLast?_reverse, List.head?_reverse]
  cases t.head? with
  | none => cases s.getLast? <;> rfl
  | some b =>
    cases s.getLast? with
    | none => rfl
    | some a =>
      have h := within_comm d b a
      by_cases hw : Spec.WithinAngle d b a
      · simp only [if_pos hw, if_pos (h.1 hw)]
      · simp only [if_neg hw, if_neg (fun g => hw (h.2 g))]

theorem disoViolations_reverse (d : Int) : ∀ s : Stack, Spec.disoViolations d s.reverse = Spec.disoViolations d s
  | [] => rfl
  | a :: s => by
    have e : a :: s = [a] ++ s := rfl
    rw [e, List.reverse_append, disoViolations_append, disoViolations_append, crossDiso_comm, disoViolations_reverse d s]
    simp [disoViolations_one]

theorem addDiso_eq (d a b : Int) (k n : Nat) (ha : -90 ≤ a ∧ a ≤ 90) (hb : -90 ≤ b ∧ b ≤ 90) :
    addDiso d a b k n = n + k * crossDiso d [a] [b] := by
  unfold addDiso crossDiso
  have := isDiso_iff a b d ha hb
  by_cases h : Spec.WithinAngle d a b
  · rw [this.2 h]; simp [h]
  · have : isDiso a b d = false := by
      cases hi : isDiso a b d with
      | false => rfl
      | true => exact absurd (this.1 hi) h
    rw [this]; simp [h]

/-! ### Contiguity -/

open Classical in
/-- One violation if the list starts with a block of `n + 1` equal plies. -/
noncomputable def runAt (n : Nat) (l : Stack) : Nat := if ∃ b, List.replicate (n + 1) b <+: l then 1 else 0

theorem runAt_congr {n : Nat} {l l' : Stack} (e : (∃ b, List.replicate (n + 1) b <+: l) ↔
    ∃ b, List.replicate (n + 1) b <+: l') : runAt n l = runAt n l' := by
  unfold runAt
  by_cases h : ∃ b, List.replicate (n + 1) b <+: l
  · rw [if_pos h, if_pos (e.1 h)]
  · rw [if_neg h, if_neg (fun g => h (e.2 g))]

open Classical in
theorem contigViolations_cons (n : Nat) (a : Int) (s : Stack) : Spec.contigViolations n (a :: s) =
    runAt n (a :: s) + Spec.contigViolations n s := by
  unfold Spec.contigViolations runAt
  rw [List.tails_cons, List.countP_cons]
  simp only [decide_eq_true_eq]
  omega

theorem contigViolations_nil (n : Nat) : Spec.contigViolations n [] = 0 := by
  unfold Spec.contigViolations
  simp

theorem contigViolations_short (n : Nat) : ∀ s : Stack, s.length ≤ n → Spec.contigViolations n s = 0
  | [], _ => contigViolations_nil n
  | a :: s, h => by
    rw [contigViolations_cons, contigViolations_short n s (by simp at h; omega), runAt, if_neg]
    rintro ⟨b, hb⟩
    have := hb.length_le
    simp at this h
    omega

theorem run_prefix {k : Nat} {b : Int} {s x y : Stack} (h : k ≤ s.length) :
    List.replicate k b <+: s ++ x ↔ List.replicate k b <+: s ++ y := by
  have key : ∀ z : Stack, List.replicate k b <+: s ++ z ↔ List.replicate k b <+: s := by
    intro z
    constructor
    · intro hp
      exact List.prefix_of_prefix_length_le hp (List.prefix_append s z) (by simpa using h)
    · intro hp
      exact hp.trans (List.prefix_append s z)
  rw [key x, key y]

theorem lastK_cons {n : Nat} (a : Int) (s : Stack) (h : n ≤ s.length) (hn : n ≠ 0) :
    lastK (a :: s) n = lastK s n := by
  unfold lastK
  rw [if_neg hn, if_neg hn, List.length_cons]
  have : s.length + 1 - n = (s.length - n) + 1 := by omega
  rw [this, List.drop_succ_cons]

theorem lastK_short {n : Nat} (s : Stack) (h : s.length ≤ n) : lastK s n = s := by
  unfold lastK
  split
  · rfl
  · rw [Nat.sub_eq_zero_of_le h, List.drop_zero]

theorem contigViolations_left (n : Nat) (hn : n ≠ 0) (x : Stack) : ∀ s : Stack,
    Spec.contigViolations n (s ++ x) = Spec.contigViolations n s + Spec.contigViolations n (lastK s n ++ x)
  | [] => by rw [lastK_short _ (by simp), contigViolations_nil]; simp
  | a :: s => by
    by_cases h : s.length + 1 ≤ n
    · rw [lastK_short _ (by simpa using h), contigViolations_short n (a :: s) (by simpa using h)]; omega
    · have h' : n ≤ s.length := by omega
      rw [List.cons_append, contigViolations_cons, contigViolations_left n hn x s, contigViolations_cons n a s,
        lastK_cons a s h' hn]
      have e : (∃ b, List.replicate (n + 1) b <+: a :: (s ++ x)) ↔ ∃ b, List.replicate (n + 1) b <+: a :: s := by
        refine exists_congr (fun b => ?_)
        have := run_prefix (b := b) (k := n + 1) (s := a :: s) (x := x) (y := []) (by simp; omega)
        simpa using this
      rw [runAt_congr e]
      omega

theorem contigViolations_right (n : Nat) (t : Stack) : ∀ x : Stack,
    Spec.contigViolations n (x ++ t) = Spec.contigViolations n t + Spec.contigViolations n (x ++ t.take n)
  | [] => by rw [List.nil_append, List.nil_append, contigViolations_short n (t.take n) (by simp)]; rfl
  | a :: x => by
    rw [List.cons_append, List.cons_append, contigViolations_cons, contigViolations_cons, contigViolations_right n t x]
    have e : (∃ b, List.replicate (n + 1) b <+: a :: (x ++ t)) ↔
        ∃ b, List.replicate (n + 1) b <+: a :: (x ++ t.take n) := by
      refine exists_congr (fun b => ?_)
      by_cases hl : t.length ≤ n
      · rw [List.take_of_length_le hl]
      · have := run_prefix (b := b) (k := n + 1) (s := a :: (x ++ t.take n)) (x := t.drop n) (y := [])
          (by simp; omega)
        rw [List.append_nil, List.cons_append, List.append_assoc, List.take_append_drop] at this
        exact this
    rw [runAt_congr e]
    omega

/-- The new violations are those of the plies around the added part. -/
theorem contigViolations_join (n : Nat) (hn : n ≠ 0) (s m t : Stack) :
    Spec.contigViolations n (s ++ m ++ t) = Spec.contigViolations n s + Spec.contigViolations n t +
      Spec.contigViolations n (lastK s n ++ m ++ t.take n) := by
  rw [contigViolations_right, List.append_assoc, contigViolations_left n hn, List.append_assoc]
  omega

theorem contigViolations_short_le (n : Nat) : ∀ s : Stack, s.length ≤ n + 1 → Spec.contigViolations n s ≤ 1
  | [], _ => by rw [contigViolations_nil]; omega
  | a :: s, h => by
    rw [contigViolations_cons, contigViolations_short n s (by simp at h; omega)]
    unfold runAt
    split <;> omega

end Bella
