import Mathlib.Data.List.Basic
import Mathlib.Data.List.Range
import Mathlib.Algebra.Order.Ring.Int
/-
Independent specification of ply drop layouts.
-/
namespace Spec

/-- Positions of the ply drops (`-1`) of a layout, in increasing order. -/
def dropPositions (ss : List ℤ) : List ℕ :=
  (List.range ss.length).filter (fun i => decide (ss[i]? = some (-1)))

/-- Missing plies between successive ply drops: sum over neighbouring positions `i, j` of the
amount by which the `j - i - 1` plies between them fall short of `m`. -/
def spacingDeficit (m : ℤ) (l : List ℕ) : ℤ :=
  ((l.zip l.tail).map (fun p => max 0 (m - ((p.2 : ℤ) - p.1 - 1)))).sum

/-- Ply drop spacing rule: at least `m` plies between any two ply drops. -/
def Spaced (m : ℤ) (ss : List ℤ) : Prop :=
  ∀ i j : ℕ, i < j → ss[i]? = some (-1) → ss[j]? = some (-1) → m ≤ (j : ℤ) - i - 1

/-- The layouts of two neighbouring panels on the plies that cover at least one of them. -/
def onCommonPlies (l1 l2 : List ℤ) : List ℤ × List ℤ :=
  let kept := (l1.zip l2).filter (fun p => ¬ (p.1 = -1 ∧ p.2 = -1))
  (kept.map Prod.fst, kept.map Prod.snd)

end Spec
