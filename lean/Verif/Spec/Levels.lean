import Verif.Spec.Layup
/-
Independent specification of a laminate laid up level by level, from its faces to its middle.
-/
namespace Spec

/-- The plies of the bottom part, from the face inwards: the levels (angle, "does the panel have this ply?") are laid up on
the bottom part if the laminate is symmetric or the level is even. -/
def bottomPlies (sym : Bool) (levels : List (ℤ × Bool)) : List ℤ :=
  (levels.zipIdx.filter (fun x => x.1.2 && (sym || x.2 % 2 == 0))).map (fun x => x.1.1)

/-- The plies of the top part, the innermost first: those of the odd levels of an asymmetric laminate. -/
def topPlies (levels : List (ℤ × Bool)) : List ℤ :=
  ((levels.zipIdx.filter (fun x => x.1.2 && x.2 % 2 == 1)).map (fun x => x.1.1)).reverse

/-- The complete laminate; `middle`: the last ply of the symmetric laminate lies on its mid-plane. -/
def levelLaminate (sym middle : Bool) (levels : List (ℤ × Bool)) : List ℤ :=
  if sym then bottomPlies true levels ++
    (if middle then (bottomPlies true levels).reverse.tail else (bottomPlies true levels).reverse)
  else bottomPlies false levels ++ topPlies levels

end Spec
