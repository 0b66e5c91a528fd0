import Verif.Spec.Layup
/-
Specification vocabulary: partial laminates built ply by ply from the outer surface inwards.
-/
namespace Spec

/-- The rules a partial laminate has to satisfy; `none` for a rule which is not enforced:
- damage tolerance rule 1: the outer ply at ±45; rule 2: the two outer plies are [+45,-45] or
  [-45,+45]; rule 3: the two outer plies at ±45;
- disorientation: neighbouring plies at most `d` degrees apart, where rules 2 and 3 exempt the pair
  of outer plies;
- contiguity: no more than `n` consecutive plies with the same angle. -/
structure PartialOK (damTol diso : Option ℤ) (contig : Option ℕ) (b : List ℤ) : Prop where
  outer : damTol ≠ none → ∀ a, b[0]? = some a → PM45 a
  second2 : damTol = some 2 → ∀ a a', b[0]? = some a → b[1]? = some a' → a' = -a
  second3 : damTol = some 3 → ∀ a', b[1]? = some a' → PM45 a'
  diso : ∀ d, diso = some d →
    PairsWithin d b (if damTol = some 2 ∨ damTol = some 3 then 1 else 0) (b.length - 1)
  contig : ∀ n, contig = some n → ContigOK n b

/-- The symmetric laminate of half `b`, whose last ply is a single middle ply if `mid`. -/
def mirrored (mid : Bool) (b : List ℤ) : List ℤ :=
  b ++ (if mid then b.dropLast.reverse else b.reverse)

end Spec

namespace Spec

/-- The plies of a panel among the chosen plies (level, angle), in the order of the choice: those
whose entry in the panel's row of the ply drop layout is not a drop (`-1`). -/
def panelPlies (row : List ℤ) (choice : List (ℕ × ℤ)) : List ℤ :=
  (choice.filter (fun p => decide (0 ≤ row.getD p.1 (-1)))).map Prod.snd

end Spec
