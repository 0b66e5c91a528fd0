import Mathlib.Data.Int.Basic
import Mathlib.Algebra.Order.Group.Abs
import Mathlib.Algebra.Order.Ring.Int
import Mathlib.Data.List.Basic
import Mathlib.Data.Rat.Defs
import Mathlib.Algebra.Order.Field.Rat
/-
Independent specification of the lay-up guidelines, in terms of lists of ply angles only.
-/
namespace Spec

/-- Admissible ply angles: a fibre direction in degrees, `-90 < θ ≤ 90`. -/
def PlyAngle (a : ℤ) : Prop := -90 < a ∧ a ≤ 90

/-- The fibre directions `a` and `b` (defined modulo 180°) are at most `d` degrees apart. -/
def WithinAngle (d a b : ℤ) : Prop := ∃ k : ℤ, |a - b + 180 * k| ≤ d

/-- Any two neighbouring plies `i`, `i+1` with `lo ≤ i` and `i < hi` are at most `d` degrees apart. -/
def PairsWithin (d : ℤ) (ss : List ℤ) (lo hi : ℕ) : Prop :=
  ∀ i a b, lo ≤ i → i < hi → ss[i]? = some a → ss[i + 1]? = some b → WithinAngle d a b

/-- Disorientation guideline: all neighbouring plies are at most `d` degrees apart. -/
def DisoOK (d : ℤ) (ss : List ℤ) : Prop :=
  ∀ i a b, ss[i]? = some a → ss[i + 1]? = some b → WithinAngle d a b

/-- Contiguity guideline: no block of more than `n` consecutive plies with the same angle. -/
def ContigOK (n : ℕ) (ss : List ℤ) : Prop :=
  ∀ a, ¬ List.replicate (n + 1) a <:+: ss

open Classical in
/-- Number of pairs of neighbouring plies more than `d` degrees apart. -/
noncomputable def disoViolations (d : ℤ) (ss : List ℤ) : ℕ :=
  (ss.zip ss.tail).countP (fun p => decide (¬ WithinAngle d p.1 p.2))

open Classical in
/-- Number of positions at which `n + 1` consecutive plies with the same angle start. -/
noncomputable def contigViolations (n : ℕ) (ss : List ℤ) : ℕ :=
  ss.tails.countP (fun t => decide (∃ a, List.replicate (n + 1) a <+: t))

/-- The laminate reads the same from both faces. -/
def Symmetric (ss : List ℤ) : Prop := ss.reverse = ss

/-- Balance guideline: each angle other than 0 and 90 is used as often as its opposite. -/
def Balanced (ss : List ℤ) : Prop :=
  ∀ a, a ≠ 0 → a ≠ 90 → a ≠ -90 → ss.count a = ss.count (-a)

/-- A ply at +45 or -45 degrees. -/
def PM45 (a : ℤ) : Prop := a = 45 ∨ a = -45

/-- Damage tolerance rule 1: a ±45 ply on each face. -/
def DamTol1 (ss : List ℤ) : Prop :=
  (∃ a, PM45 a ∧ [a] <+: ss) ∧ (∃ a, PM45 a ∧ [a] <:+ ss)

/-- Damage tolerance rule 2: a pair `[+45,-45]` or `[-45,+45]` on each face. -/
def DamTol2 (ss : List ℤ) : Prop :=
  (∃ a, PM45 a ∧ [a, -a] <+: ss) ∧ (∃ a, PM45 a ∧ [a, -a] <:+ ss)

/-- Damage tolerance rule 3: two ±45 plies on each face. -/
def DamTol3 (ss : List ℤ) : Prop :=
  (∃ a b, PM45 a ∧ PM45 b ∧ [a, b] <+: ss) ∧ (∃ a b, PM45 a ∧ PM45 b ∧ [a, b] <:+ ss)

/-- The five minimum shares (0, 90, +45, -45, ±45 together) requested by the 10% rule. -/
structure Shares where
  s0 : ℚ
  s90 : ℚ
  s45 : ℚ
  s135 : ℚ
  s45_135 : ℚ

/-- Ply content given by its number of 0, 90, +45, -45 plies out of `total` plies: each direction
has at least its requested share, up to a tolerance `tol`. -/
def MeetsShares (p : Shares) (tol : ℚ) (n0 n90 n45 n135 total : ℚ) : Prop :=
  p.s0 * total ≤ n0 + tol * total ∧ p.s90 * total ≤ n90 + tol * total ∧
  p.s45 * total ≤ n45 + tol * total ∧ p.s135 * total ≤ n135 + tol * total ∧
  p.s45_135 * total ≤ n45 + n135 + tol * total

open Classical in
/-- The message of the first broken rule of a list of rules. -/
noncomputable def firstBroken : List (Prop × String) → Option String
  | [] => none
  | (p, m) :: t => if p then firstBroken t else some m

end Spec
