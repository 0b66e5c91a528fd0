import Verif.Model.LaylaSearch
/-
Model of the option `not_constraints` of LAYLA's search (src/LAYLA_V02/beam_search.py 74-91 and 196-214, outer_step_sym.py 67-71):
symmetric laminates that must not satisfy the 10% rule.  The other parts of the search are those of Model/LaylaSearch.lean; the
number `r` is `random_for_10`.
-/
namespace Bella

/-- beam_search.py 76-91: the limit on the number of plies, for a share `p` of the `n` plies (half of them for a symmetric laminate). -/
def notLimit (sym : Bool) (p : ℚ) (n : Nat) : Int :=
  if sym then ⌈(⌈p * n⌉ : ℚ) / 2⌉ else ⌈p * n⌉

/-- beam_search.py 196-214: is a child with these numbers of plies left out? -/
def notPruned (c nc : Cons) (n : Nat) (r : Nat) (counts : List ℚ) : Py Bool :=
  if nc.rule10 = true then
    match r with
    | 0 => do
      let x ← cntAt counts c.index0
      return decide ((notLimit c.sym nc.p0 n : ℚ) ≤ x + 1)
    | 1 => do
      let x ← cntAt counts c.index90
      return decide ((notLimit c.sym nc.p90 n : ℚ) ≤ x + 1)
    | 2 => do
      let x ← cntAt counts c.index45
      return decide ((notLimit c.sym nc.p45 n : ℚ) ≤ x + 1)
    | 3 => do
      let x ← cntAt counts c.index135
      return decide ((notLimit c.sym nc.p135 n : ℚ) ≤ x + 1)
    | 4 => do
      let x ← cntAt counts c.index45
      let y ← cntAt counts c.index135
      return decide ((notLimit c.sym nc.p45_135 n : ℚ) ≤ x + y + 1)
    | _ => .ok false
  else .ok false

variable {V : Type} [AddCommGroup V]

/-- beam_search.py 187-247: the children of a node for the orientations kept by the pruning. -/
def laylaNotKids (P : LaylaProblem V) (nc : Cons) (r : Nat) (g : LaylaGroup) (localLevel level : Nat) (m : LNode V) :
    List Int → Py (List (LNode V))
  | [] => .ok []
  | a :: as => do
    let k ← laylaChild P g localLevel level m a
    let b ← notPruned P.c nc P.n r k.counts
    let rest ← laylaNotKids P nc r g localLevel level m as
    return if b then rest else k :: rest

/-- beam_search.py 125-394, as `laylaBranch`. -/
def laylaNotBranch (P : LaylaProblem V) (nc : Cons) (r : Nat) (g : LaylaGroup) (localLevel level : Nat) (m : LNode V) :
    Py (List (LNode V)) := do
  let kept ← laylaPruning P.c.angles (laylaSimpBot P.c g.ssBot) m.bot (if P.c.sym then [] else laylaSimpTop P.c g.ssTop) m.top
    level P.n P.c P.rule
  match kept with
  | none => return []
  | some ch => do
    let kids ← laylaNotKids P nc r g localLevel level m ch.reverse
    if kids.length = 0 then return []
    else do
      let kids := kids.map (fun (k : LNode V) => { k with obj := P.objective level k.lampam })
      let kids ← laylaLeaves P g localLevel level kids
      let fs ← P.factors level (localLevel == g.size - 1) (kids.map (fun (k : LNode V) => (k.lampam, k.counts)))
      return laylaLocalPrune P g localLevel
        (List.zipWith (fun (k : LNode V) (f : ℚ) => { k with obj := k.obj * f }) kids fs)

/-- beam_search.py 119-437, as `laylaLevel`. -/
def laylaNotLevel (P : LaylaProblem V) (nc : Cons) (r : Nat) (g : LaylaGroup) (localLevel level : Nat) (ns : List (LNode V)) :
    Py (List (LNode V)) := do
  let kids ← ns.mapM (laylaNotBranch P nc r g localLevel level)
  let ks := kids.flatten
  if ks.length = 0 then .error (.exc "Infeasible beam-search, increase the branching limits")
  else if g.last = true ∧ localLevel + 2 = g.size then return laylaGlobalPrune P.globalLimitP ks
  else if localLevel ≠ g.size - 1 then return laylaGlobalPrune P.globalLimit ks
  else return ks

/-- beam_search.py 119-437, as `laylaLevels`. -/
def laylaNotLevels (P : LaylaProblem V) (nc : Cons) (r : Nat) (g : LaylaGroup) : List Nat → Nat → List (LNode V) → Py (List (LNode V))
  | [], _, ns => .ok ns
  | level :: ls, k, ns => do
    let ns ← laylaNotLevel P nc r g k level ns
    laylaNotLevels P nc r g ls (k + 1) ns

/-- beam_search.py 28-476, as `laylaBeam`. -/
def laylaNotBeam (P : LaylaProblem V) (nc : Cons) (r : Nat) (g : LaylaGroup) (levels : List Nat) (lampam : V) (counts : List ℚ) :
    Py (LNode V) := do
  let ns ← laylaNotLevels P nc r g levels 0 [{ bot := [], top := [], lampam := lampam, counts := counts, obj := 0, full := [] }]
  let k ← pyGet ns (argMin (ns.map (fun (k : LNode V) => k.obj)))
  if k.obj > 99 / 100 * 10 ^ 10 then .error (.exc "No successfull repair during beam search, increase the branching limits")
  else return k

/-- outer_step_sym.py 73-132, as `laylaGroups`. -/
def laylaNotGroups (P : LaylaProblem V) (nc : Cons) (r : Nat) : List (List Nat × V) → Stack → Stack → V → List ℚ → Py (LNode V)
  | [], _, _, _, _ => .error .unbound
  | [(levels, assumed)], bot, top, lampam, counts =>
    laylaNotBeam P nc r { ssBot := bot, ssTop := top, size := levels.length, last := true, middle := if P.c.sym = true ∧ P.n % 2 = 1 then (P.n + 1) / 2 else 0 }
      levels (lampam - assumed) counts
  | (levels, assumed) :: g :: gs, bot, top, lampam, counts => do
    let k ← laylaNotBeam P nc r { ssBot := bot, ssTop := top, size := levels.length, last := false, middle := 0 }
      levels (lampam - assumed) counts
    laylaNotGroups P nc r (g :: gs) (bot ++ k.bot) (k.top ++ top) k.lampam k.counts

/-- outer_step_sym.py 22-201, and the test of optimiser.py 56-59 (here at each outer step): `not_constraints` is refused for laminates that
are not symmetric. -/
def laylaNotStep (P : LaylaProblem V) (nc : Cons) (r : Nat) (groups : List (List Nat × V)) : Py (LaylaStep V) :=
  if P.c.sym = false then .error (.exc "Set of constraints that must not be satisfied only accounted for symmetric laminates")
  else do
    let k ← laylaNotGroups P nc r groups [] [] ((groups.map Prod.snd).sum) (List.replicate P.c.nAngles 0)
    let o ← P.finalObj k.lampam k.full
    return { ss := k.full, lampam := k.lampam, obj := o }

end Bella
