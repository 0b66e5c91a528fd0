import Verif.Spec.Layup
/-
Independent specification of the junction of a sub-laminate with the plies designed before.
-/
namespace Spec

/-- Contiguity at a junction: no block of `n + 1` equal plies made of the last `p ≥ 1` plies of
`before` and the first `n + 1 - p ≥ 1` plies of `row`. -/
def JunctionContig (n : ℕ) (before row : List ℤ) : Prop :=
  ∀ (p : ℕ) (a : ℤ), 1 ≤ p → p ≤ n →
    ¬ (List.replicate p a <:+ before ∧ List.replicate (n + 1 - p) a <+: row)

/-- Disorientation at a junction: the last ply of `before` and the first of `row` are at most `d`
degrees apart. -/
def JunctionDiso (d : ℤ) (before row : List ℤ) : Prop :=
  ∀ a b, [a] <:+ before → [b] <+: row → WithinAngle d a b

end Spec
