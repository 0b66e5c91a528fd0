import Mathlib.Algebra.Order.Ring.Rat
/-
What it means to divide plies into groups.
-/
namespace Spec

/-- `sizes` divides `N` plies into groups of `gmin` to `gmax` plies. -/
def Admissible (gmin gmax N : Int) (sizes : List Int) : Prop :=
  (∀ s ∈ sizes, gmin ≤ s ∧ s ≤ gmax) ∧ sizes.sum = N

/-- Number of groups holding ply `p`, group `i` holding the `sizes[i]` plies starting with
`firsts[i]`. -/
def groupsHolding (firsts sizes : List Int) (p : Int) : Nat :=
  (firsts.zip sizes).countP (fun g => decide (g.1 ≤ p ∧ p < g.1 + g.2))

/-- Number of plies to divide into groups: those of one half, without the middle ply, of a symmetric
laminate, the covering plies being fixed. -/
def pliesToDesign (sym : Bool) (n nCov : Int) : Int :=
  if sym then n / 2 - nCov else n - 2 * nCov

/-- Number of plies a panel of `n` plies lacks with respect to one of `nMax` plies: for symmetric
laminates half of it, the middle ply of the thinner panel not counted. -/
def dropsWanted (sym : Bool) (nMax n : Int) : ℚ :=
  if sym then ((nMax - 2 * (n / 2) : Int) : ℚ) / 2 else ((nMax - n : Int) : ℚ)

end Spec
