import Verif.Model.Filters
import Verif.Model.Blending
/-
Models of src/BELLA/pruning.py and of `internal_contig2` of src/guidelines/internal_contig.py
-/
namespace Bella

/-- internal_contig.py 28-63: the hand-written windows of `internal_contig2`. -/
def contigHit2 (ss : Stack) (nContig j : Nat) : Bool :=
  (List.range nContig).all (fun k => nth ss j == nth ss (j + k + 1))

/-- internal_contig.py 11-72 `internal_contig2`. -/
def internalContig2 (ss : Stack) (c : Cons) : Py Bool :=
  if c.contig then
    if c.nContig < ss.length then
      if c.nContig = 2 ∨ c.nContig = 3 ∨ c.nContig = 4 ∨ c.nContig = 5 ∨ c.nContig = 6 then
        .ok ((List.range (ss.length - c.nContig)).all (fun j => ! contigHit2 ss c.nContig j))
      else .error (.exc "constraints.n_contig must be 2, 3, 4 or 5")
    else .ok true
  else .ok true

/-- pruning.py: the loops `for ind in range(child_ss.size)[::-1]: if not test: np.delete`. -/
def keepIf (f : Int → Py Bool) : List Int → Py (List Int)
  | [] => .ok []
  | a :: t => do
    let r ← keepIf f t
    let b ← f a
    return if b then a :: r else r

/-- pruning.py `my_set`. -/
def inMySet (a : Int) : Bool := a == 45 || a == -45

/-- numpy `l[l.size - k:]`: with `k > l.size` the start is negative and counts from the end. -/
def tailFrom (l : Stack) (k : Nat) : Stack :=
  if k ≤ l.length then l.drop (l.length - k) else lastK l (k - l.length)

/-- `if child_ss.size == 0: return None; return child_ss`. -/
def noneIfEmpty (l : List Int) : Option (List Int) := if l.length = 0 then none else some l

/-- pruning.py 67-86 and 89-106 (damage tolerance rules 2 and 3, second ply): `m` is
`mother_ss_bot[0]` or `mother_ss_top[-1]`. -/
def damTolSecond (rule : Int) (c : Cons) (m : Int) (child : List Int) : List Int :=
  if rule = 2 then child.filter (fun a => a == -m)
  else if rule = 3 then child.filter (fun a => inMySet a &&
    (! (c.diso && ! isDiso (-45) 45 c.deltaAngle) || a == -m))
  else child

/-- pruning.py 112-144: disorientation.  `none`: branch pruned. -/
def pruneDiso (child : List Int) (bot top : Stack) (level n : Nat) (c : Cons) : Py (List Int) :=
  if c.diso then
    if c.sym ∨ level % 2 = 0 then
      let child := if bot.length > 0 then
        child.filter (fun a => isDiso a (nth bot (bot.length - 1)) c.deltaAngle) else child
      if ¬ c.sym = true ∧ level = n - 1 then do
        if child.length > 0 ∧ top.length = 0 then .error .indexError
        else pure (child.filter (fun a => isDiso a (nth top 0) c.deltaAngle))
      else .ok child
    else
      let child := if top.length > 0 then
        child.filter (fun a => isDiso a (nth top 0) c.deltaAngle) else child
      if level = n - 1 then
        if child.length > 0 ∧ bot.length = 0 then .error .indexError
        else pure (child.filter (fun a => isDiso a (nth bot (bot.length - 1)) c.deltaAngle))
      else .ok child
  else .ok child

/-- pruning.py 147-206: contiguity.  In the asymmetric case of the last ply, `internal_contig2` is
called with the keyword `new_stack` it does not have (line 200). -/
def pruneContig (child : List Int) (bot : Stack) (level n : Nat) (c : Cons)
    (hasMiddle : Bool) : Py (List Int) :=
  if level ≠ n - 1 then
    if c.sym ∨ level % 2 = 0 then
      keepIf (fun a => do
        let t ← externalContig (β := Unit) c 1 1 bot [[a]] none
        pure (! (t.1.length == 0))) child
    else .ok child
  else if c.sym then
    keepIf (fun a =>
      let b := tailFrom bot c.nContig
      if hasMiddle then internalContig2 (b ++ [a] ++ b.reverse) c
      else internalContig2 (b ++ [a, a] ++ b.reverse) c) child
  else if child.length = 0 then .ok child
  else .error .typeError

/-- pruning.py 109-211: disorientation and contiguity. -/
def pruneRules (child : List Int) (bot top : Stack) (level n : Nat) (c : Cons) (hasMiddle : Bool) :
    Py (Option (List Int)) := do
  let child1 ← pruneDiso child bot top level n c
  if c.diso = true ∧ child1.length = 0 then pure none
  else if c.contig then do
    let child2 ← pruneContig child1 bot level n c hasMiddle
    pure (noneIfEmpty child2)
  else pure (some child1)

/-- pruning.py 16-213 `pruning_diso_contig_damtol`; `n` is `n_plies_to_optimise`, the damage
tolerance rule is that of BELLA's constraint objects. -/
def pruning (child0 : List Int) (bot top : Stack) (level n : Nat) (c : Cons) (rule : Int)
    (hasMiddle : Bool) : Py (Option (List Int)) :=
  let child := if c.sym = true ∧ level = n - 1 ∧ hasMiddle = true then [0, 90] else child0
  if c.damTol then
    if level = 0 ∨ (¬ c.sym = true ∧ level = n - 1) then
      .ok (noneIfEmpty (child.filter inMySet))
    else if (rule = 2 ∨ rule = 3) ∧ level = 1 then do
      let m ← pyGet bot 0
      pure (noneIfEmpty (damTolSecond rule c m child))
    else if (rule = 2 ∨ rule = 3) ∧ level + 2 = n ∧ ¬ c.sym = true then
      if top.length = 0 then .error .indexError
      else .ok (noneIfEmpty (damTolSecond rule c (nth top (top.length - 1)) child))
    else pruneRules child bot top level n c hasMiddle
  else pruneRules child bot top level n c hasMiddle

end Bella
