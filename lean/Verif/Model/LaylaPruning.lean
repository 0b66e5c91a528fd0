import Verif.Model.Pruning
/-
Model of src/LAYLA_V02/pruning.py, and of the shortened stacks that src/LAYLA_V02/beam_search.py passes to it.
-/
namespace Bella

/-- beam_search.py 93-99: the part of the plies at the bottom of the laminate that is looked at. -/
def laylaSimpBot (c : Cons) (ssBot : Stack) : Stack :=
  if c.contig = true ∨ c.diso = true then
    if ssBot.length > c.nContig then lastK ssBot c.nContig else ssBot
  else ssBot

/-- beam_search.py 94-103: the part of the plies at the top of the laminate that is looked at. -/
def laylaSimpTop (c : Cons) (ssTop : Stack) : Stack :=
  if c.contig = true ∨ c.diso = true then
    if ssTop.length > c.nContig then ssTop.take c.nContig else ssTop
  else ssTop

/-- pruning.py 122-162: disorientation.  `mBot`, `mTop`: plies of the group under design at the bottom and at
the top; `sBot`, `sTop`: plies of the previous groups. -/
def laylaDiso (child : List Int) (sBot mBot sTop mTop : Stack) (level n : Nat) (c : Cons) :
    Py (List Int) :=
  if c.diso then do
    let child :=
      if c.sym = true ∨ level % 2 = 1 then
        if sBot.length > 0 ∧ mBot.length = 0 then
          child.filter (fun a => isDiso a (nth sBot (sBot.length - 1)) c.deltaAngle)
        else if mBot.length > 0 then
          child.filter (fun a => isDiso a (nth mBot (mBot.length - 1)) c.deltaAngle)
        else child
      else
        let child := if sTop.length > 0 ∧ mTop.length = 0 then
          child.filter (fun a => isDiso a (nth sTop 0) c.deltaAngle) else child
        if mTop.length > 0 then child.filter (fun a => isDiso a (nth mTop 0) c.deltaAngle) else child
    if c.sym = false ∧ level = n - 1 then
      if level % 2 = 0 then
        if child.length > 0 ∧ mBot.length = 0 then .error .indexError
        else .ok (child.filter (fun a => isDiso a (nth mBot (mBot.length - 1)) c.deltaAngle))
      else
        if child.length > 0 ∧ mTop.length = 0 then .error .indexError
        else .ok (child.filter (fun a => isDiso a (nth mTop 0) c.deltaAngle))
    else .ok child
  else .ok child

/-- pruning.py 208-214: the plies before the last one. -/
def laylaBefore (n : Nat) (sBot mBot : Stack) : Stack :=
  let b := tailFrom mBot n
  if b.length < n then tailFrom sBot (n - b.length) ++ b else b

/-- pruning.py 169-258: contiguity.  The branch of lines 188-202 cannot be reached: its condition implies the
one of lines 172-174.  In the asymmetric case of the ply of highest index, `internal_contig2` is called with
the keyword `new_stack` it does not have (lines 254-257). -/
def laylaContig (child : List Int) (sBot mBot : Stack) (level n : Nat) (c : Cons) : Py (List Int) :=
  if (c.sym = true ∧ level ≠ n / 2 + n % 2 - 1) ∨ (c.sym = false ∧ level ≠ n - 1) then
    keepIf (fun a => do
      let t ← externalContig (β := Unit) c 1 1 (sBot ++ mBot) [[a]] none
      pure (! (t.1.length == 0))) child
  else if c.sym then
    keepIf (fun a =>
      let b := laylaBefore c.nContig sBot mBot
      if n % 2 = 0 then internalContig2 (b ++ [a, a] ++ b.reverse) c
      else internalContig2 (b ++ [a] ++ b.reverse) c) child
  else if child.length = 0 then .ok child
  else .error .typeError

/-- pruning.py 119-263: disorientation and contiguity. -/
def laylaRules (child : List Int) (sBot mBot sTop mTop : Stack) (level n : Nat) (c : Cons) :
    Py (Option (List Int)) := do
  let child1 ← laylaDiso child sBot mBot sTop mTop level n c
  if c.diso = true ∧ child1.length = 0 then pure none
  else if c.contig then do
    let child2 ← laylaContig child1 sBot mBot level n c
    pure (noneIfEmpty child2)
  else pure (some child1)

/-- pruning.py 17-263 `pruning_diso_contig_damtol`; `n` is `targets.n_plies`, `level` the index of the ply in
the laminate, `rule` the damage tolerance rule. -/
def laylaPruning (child0 : List Int) (sBot mBot sTop mTop : Stack) (level n : Nat) (c : Cons) (rule : Int) :
    Py (Option (List Int)) :=
  let child := if c.sym = true ∧ n % 2 = 1 ∧ level = n / 2 then [0, 90] else child0
  if c.damTol then
    if level = 0 ∨ (c.sym = false ∧ level = n - 1) then
      .ok (noneIfEmpty (child.filter inMySet))
    else if (rule = 2 ∨ rule = 3) ∧ level = 1 then
      if child.length > 0 ∧ mBot.length = 0 then .error .indexError
      else .ok (noneIfEmpty (damTolSecond rule c (nth mBot 0) child))
    else if (rule = 2 ∨ rule = 3) ∧ level + 2 = n ∧ c.sym = false then
      if child.length > 0 ∧ mTop.length = 0 then .error .indexError
      else .ok (noneIfEmpty (damTolSecond rule c (nth mTop (mTop.length - 1)) child))
    else laylaRules child sBot mBot sTop mTop level n c
  else laylaRules child sBot mBot sTop mTop level n c

end Bella
