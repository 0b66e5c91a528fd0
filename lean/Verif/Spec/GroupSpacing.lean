import Verif.Spec.Drops
import Verif.Spec.PdlGroups
import Mathlib.Algebra.Order.Ring.Rat
/-
Specification vocabulary: spacing of the ply drops of a group of plies placed between other plies.
-/
namespace Spec

/-- The ply drops between two neighbouring panels: the layout of the first one on the plies that cover at
least one of them or, if no ply of the second one is dropped there, the layout of the second one. -/
def relativeLayout (l1 l2 : List ℤ) : List ℤ :=
  if (-1 : ℤ) ∈ (onCommonPlies l1 l2).1 then (onCommonPlies l1 l2).1 else (onCommonPlies l1 l2).2

/-- Plies missing between the ply drops, divided by the number of plies. -/
def spacingShare (m : ℤ) (ss : List ℤ) : ℚ := (spacingDeficit m (dropPositions ss) : ℚ) / ss.length

/-- Rows of the panels in a group, between the rows of the plies placed before and after them. -/
def inContext (before group after : ℕ → List ℤ) (i : ℕ) : List ℤ := before i ++ group i ++ after i

/-- Spacing penalty of a group of plies: weighted sum over the pairs of neighbouring panels; pairs of panels
with a row of exactly one ply in the group are not looked at. -/
def groupPenalty (m : ℤ) (boundaries : List (ℕ × ℕ × ℚ)) (before group after : ℕ → List ℤ) : ℚ :=
  (boundaries.map (fun b => if (group b.1).length = 1 ∨ (group b.2.1).length = 1 then 0
    else b.2.2 * spacingShare m (relativeLayout (inContext before group after b.1)
      (inContext before group after b.2.1)))).sum

/-- The ply drops of a group of plies are sufficiently spaced between any two neighbouring panels, the plies
before and after included. -/
def GroupSpaced (m : ℤ) (boundaries : List (ℕ × ℕ × ℚ)) (before group after : ℕ → List ℤ) : Prop :=
  ∀ b ∈ boundaries, (group b.1).length ≠ 1 → (group b.2.1).length ≠ 1 →
    Spaced m (relativeLayout (inContext before group after b.1) (inContext before group after b.2.1))

/-- The mirror image of the rows of a group, without its last ply if this is the middle ply. -/
def mirrorRows (hasMiddle : Bool) (group : ℕ → List ℤ) (i : ℕ) : List ℤ :=
  (if hasMiddle then (group i).dropLast else group i).reverse

end Spec
