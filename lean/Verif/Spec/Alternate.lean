import Mathlib.Algebra.Order.Field.Rat
/-
Specification vocabulary: plies placed in turn at the bottom and at the top.
-/
namespace Spec

/-- The entries at the positions 0, 2, 4, … of a list, and those at the positions 1, 3, 5, … -/
def alternate {α : Type} : List α → List α × List α
  | [] => ([], [])
  | a :: l => (a :: (alternate l).2, (alternate l).1)

/-- Bottom part of the plies `w` given in the order in which they are placed: all the plies for a symmetric laminate, every
second ply otherwise. -/
def bottomOf (sym : Bool) (w : List ℤ) : List ℤ := if sym then w else (alternate w).1

/-- Top part of the plies `w`, from the mid-surface outwards; the first ply placed at the top is the outermost one. -/
def topOf (sym : Bool) (w : List ℤ) : List ℤ := if sym then [] else (alternate w).2.reverse

end Spec

namespace Spec

/-- First position of the block holding position `k`, for consecutive blocks of the given sizes. -/
def blockStart : List ℕ → ℕ → ℕ
  | [], _ => 0
  | s :: ss, k => if k < s then 0 else s + blockStart ss (k - s)

end Spec
