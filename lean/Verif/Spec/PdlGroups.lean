import Verif.Spec.Layout
/-
Specification vocabulary: ply drop layouts made of groups of plies.  A group is a table with one row
per panel, `none` a group that does not exist.
-/
namespace Spec

/-- Row of panel `ip` in a group. -/
def groupRow (ip : Nat) : Option (List (List Int)) → List Int
  | none => []
  | some g => g.getD ip []

/-- The rows of panel `ip` in the groups, one after the other. -/
def groupRows (ip : Nat) (groups : List (Option (List (List Int)))) : List Int :=
  groups.flatMap (groupRow ip)

/-- For asymmetric laminates, groups are designed alternately from the two faces towards the middle:
groups of even rank of `before` from the first face, groups of odd rank of `after` from the
second one. -/
def alternateRows (ip : Nat) (before after : List (Option (List (List Int)))) : List Int :=
  (List.range before.length).flatMap
    (fun k => if k % 2 = 0 then groupRow ip (before.getD k none) else []) ++
  (List.range before.length).reverse.flatMap
    (fun k => if k % 2 = 1 then groupRow ip (after.getD k none) else [])

/-- The row is dropped (-1) where `layout` is, and elsewhere holds the number of plies of `layout`
up to there: the plies are numbered `1, 2, 3, ...` -/
def NumbersPlies (layout row : List Int) : Prop :=
  ∀ (j : Nat) (x : Int), layout[j]? = some x →
    row[j]? = some (if x = -1 then -1 else (plyCount layout (j + 1) : Int))

/-- Panel `thin` is obtained from panel `thick` by dropping plies. -/
def Nested (thick thin : List Int) : Prop :=
  ∀ j : Nat, thick[j]? = some (-1) → thin[j]? = some (-1)

end Spec
