import Verif.Spec.GroupSpacing
import Mathlib.Data.List.Nodup
import Mathlib.Data.Rat.Defs
/-
Independent specification of the redesign of a blending strip: the plans of ply drops (from the reference panel to the
thinnest panel) and of ply additions (from the reference panel to the thickest one), and the spacing penalty of a
strip on which only some panels have been designed.
-/
namespace Spec

/-- The plies are dropped (or added) one after the other so that an angled ply is followed at once by its balancing ply:
the sequence of fibre angles splits in plies at 0 or 90 degrees and pairs of opposite angles; the last pair may be
incomplete. -/
def OneByOne : List ℤ → Prop
  | [] => True
  | [_] => True
  | a :: b :: t => if a = 0 ∨ a = 90 then OneByOne (b :: t) else b = -a ∧ OneByOne t

/-- The row `ref` after the drops of the plies at the positions `ds` (and at their mirror images if `sym`). -/
def dropped (sym : Bool) (ref : List ℤ) (ds : List ℕ) : List ℤ :=
  ref.mapIdx (fun j a => if j ∈ ds ∨ (sym = true ∧ ref.length - 1 - j ∈ ds) then -1 else a)

/-- The plies of a row. -/
def plies (row : List ℤ) : List ℤ := row.filter (fun a => a != -1)

/-- A ply that may be dropped: there is one, it is not among the `cov` plies next to a face, and, if its mirror image
is dropped with it, it lies above the mid-plane. -/
def Droppable (sym : Bool) (cov : ℕ) (ref : List ℤ) (d : ℕ) : Prop :=
  ref[d]? ≠ some (-1) ∧ cov ≤ d ∧ if sym = true then d < ref.length / 2 else d + cov < ref.length

/-- A plan of ply drops, one at each of `k` steps: different plies that may be dropped, one by one with respect to
balance (if `bal`), such that the laminate reached after each step is acceptable. -/
structure DropPlan (sym bal : Bool) (cov k : ℕ) (ref : List ℤ) (ok : List ℤ → Prop) (ds : List ℕ) : Prop where
  steps : ds.length = k
  once : ds.Nodup
  free : ∀ d ∈ ds, Droppable sym cov ref d
  balance : bal = true → OneByOne (ds.map (fun d => ref.getD d 0))
  accepted : ∀ j, 1 ≤ j → j ≤ k → ok (plies (dropped sym ref (ds.take j)))

/-- A laminate with the ply `a` added in front of position `p` (and its mirror image if `sym`). -/
def added (sym : Bool) (ss : List ℤ) (p : ℕ × ℤ) : List ℤ :=
  if sym then ss.take p.1 ++ [p.2] ++ (ss.drop p.1).take (ss.length - 2 * p.1) ++ [p.2] ++ ss.drop (ss.length - p.1)
  else ss.take p.1 ++ [p.2] ++ ss.drop p.1

/-- A position at which a ply may be added to a laminate of `n` plies: not within the `cov` plies next to a face, and,
if its mirror image is added with it, not below the mid-plane. -/
def Addable (sym : Bool) (cov n p : ℕ) : Prop :=
  cov ≤ p ∧ if sym = true then p ≤ n / 2 else p + cov ≤ n

/-- A plan of ply additions, one at each of `k` steps, starting from the laminate `ref`. -/
structure AddPlan (sym bal : Bool) (cov k : ℕ) (angles : List ℤ) (ref : List ℤ) (ok : List ℤ → Prop)
    (ps : List (ℕ × ℤ)) : Prop where
  steps : ps.length = k
  free : ∀ j, ∀ p : ℕ × ℤ, ps[j]? = some p →
    p.2 ∈ angles ∧ Addable sym cov ((ps.take j).foldl (added sym) ref).length p.1
  balance : bal = true → OneByOne (ps.map Prod.snd)
  accepted : ∀ j, 1 ≤ j → j ≤ k → ok ((ps.take j).foldl (added sym) ref)

/-- Missing plies per ply of the compared layout of two panels. -/
def boundaryPenalty (m : ℤ) (l1 l2 : List ℤ) : ℚ :=
  spacingShare m (relativeLayout l1 l2)

/-- The penalty of a boundary of a strip: 0 if one of the panels has not been designed yet or has a row of one cell. -/
def stripBoundaryPenalty (m : ℤ) (weight : ℕ × ℕ → ℚ) (rows : List (Option (List ℤ))) (b : ℕ × ℕ) : ℚ :=
  match rows[b.1]?.join, rows[b.2]?.join with
  | some l1, some l2 => if l1.length = 1 ∨ l2.length = 1 then 0 else weight b * boundaryPenalty m l1 l2
  | _, _ => 0

end Spec
