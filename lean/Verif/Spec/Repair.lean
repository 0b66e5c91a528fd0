import Verif.Spec.Layup
/-
Vocabulary for partially designed laminates: the mark 666 stands for a ply still to be chosen from a
queue of plies (each queue ply is used twice, once per half, in a symmetric laminate).
-/
namespace Spec

/-- The plies already chosen. -/
def knownPlies (ss : List ℤ) : List ℤ := ss.filter (fun a => decide (a ≠ 666))

/-- All the plies of the laminate once the queue is used up. -/
def plyContent (sym : Bool) (ss queue : List ℤ) : List ℤ :=
  knownPlies ss ++ queue ++ (if sym then queue else [])

/-- Number of plies per half of a symmetric laminate (without the middle ply), or in all. -/
def designPlies (sym : Bool) (n : ℕ) : ℕ := if sym then n / 2 else n

end Spec
