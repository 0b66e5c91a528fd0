import Verif.Model.Contiguity
import Verif.Model.Blending
/-
Model of the incremental counts of src/guidelines: `calc_n_viola_diso` and `calc_penalty_diso` (disorientation.py),
`calc_n_viola_contig` and `penalty_contig` (contiguity.py), and of `calc_n_plies_per_angle` (ten_percent_rule.py).
-/
namespace Bella

/-- `l[-1]`: `IndexError` on an empty array. -/
def pyLast (l : Stack) : Py Int :=
  match l.getLast? with
  | some a => .ok a
  | none => .error .indexError

/-- disorientation.py 132-135, 138-141, 144-147, 155-161, 167-170: one more violation if the two angles differ too much. -/
def addDiso (delta a b : Int) (k n : Nat) : Nat :=
  if !isDiso a b delta then n + k else n

/-- disorientation.py 154-161, 166-170: nothing to compare with in an empty part. -/
def addDisoOpt (delta a : Int) (k n : Nat) : Option Int → Nat
  | some b => addDiso delta a b k n
  | none => n

/-- disorientation.py 128-147: the last ply of an asymmetric laminate, one panel; `pdl` is the entry of the ply drop matrix. -/
def violaDisoLast (delta : Int) (level : Nat) (pdl child : Int) (bot top : Stack) (n : Nat) : Py Nat :=
  if 0 ≤ pdl then
    if level % 2 = 0 then do
      let t ← pyGet top 0
      return addDiso delta child t 1 n
    else do
      let b ← pyLast bot
      return addDiso delta child b 1 n
  else do
    let b ← pyLast bot
    let t ← pyGet top 0
    return addDiso delta b t 1 n

/-- disorientation.py 150-170: the new ply and its neighbour in the part of the laminate it is added to, one panel. -/
def violaDisoNew (sym : Bool) (delta : Int) (level : Nat) (pdl child : Int) (bot top : Stack) (n : Nat) : Nat :=
  if sym ∨ level % 2 = 0 then
    if 0 ≤ pdl then addDisoOpt delta child (if sym then 2 else 1) n bot.getLast? else n
  else
    if 0 ≤ pdl then addDisoOpt delta child 1 n top.head? else n

/-- disorientation.py 102-171 `calc_n_viola_diso`.  The two loops over the panels are merged into one (they update the
count of their own panel only); `child` is `child_ss[0]`; `mother_ss_top` is given. -/
def calcNViolaDiso (mother : List Nat) (bots : List Stack) (child : Int) (level nPanels : Nat) (pdl : List (List Int))
    (sym : Bool) (delta : Int) (tops : List Stack) (last : Bool) : Py (List Nat) :=
  (List.range nPanels).mapM (fun p => do
    let n ← pyGet mother p
    let bot ← pyGet bots p
    let top ← pyGet tops p
    let row ← pyGet pdl p
    let d ← pyGet row level
    let n ← (if !sym && last then violaDisoLast delta level d child bot top n else .ok n)
    return violaDisoNew sym delta level d child bot top n)

/-- disorientation.py 44-61 `calc_penalty_diso` and contiguity.py 55-73 `penalty_contig`. -/
def calcPenaltyCount (n : Nat) (viola : List (List Rat)) (active : Bool) (coeff norm : Rat) : List Rat :=
  if active then viola.map (fun r => coeff * r.sum / norm) else List.replicate n 0

/-- contiguity.py 158-166, 177-187, 196-207: the plies around the end of the search of one panel.  In a symmetric laminate
`np.array([child_ss])` is two-dimensional, and `np.hstack` raises. -/
def contigLastStack (sym : Bool) (nContig : Nat) (pdl child : Int) (bot top : Stack) : Py Stack :=
  if sym then
    if 0 ≤ pdl then .error .valueError
    else .ok (lastK bot nContig ++ (lastK bot nContig).reverse)
  else
    if 0 ≤ pdl then .ok (lastK bot nContig ++ [child] ++ top.take nContig)
    else .ok (lastK bot nContig ++ top.take nContig)

/-- contiguity.py 157-170, 176-190 and 195-210: the loop over the panels at the last level. -/
def contigLast (sym : Bool) (nContig level : Nat) (child : Int) : List (Nat × Stack × Stack × List Int) → Py (List Nat)
  | [] => .ok []
  | (n, bot, top, row) :: rest => do
    let d ← pyGet row level
    let st ← contigLastStack sym nContig d child bot top
    let v ← calcContigVector st nContig
    let t ← contigLast sym nContig level child rest
    return (n + countTrue v) :: t

/-- contiguity.py 219-223 and 236-237: a window that breaks the rule counts twice in a symmetric laminate. -/
def addContig (sym : Bool) (nContig n : Nat) (st : Stack) : Py Nat := do
  let ok ← isContig st nContig
  return if !ok then (if sym then n + 2 else n + 1) else n

/-- contiguity.py 213-226: the loop over the panels for a ply added to the bottom part; the variable `new_stack` keeps its
value from the previous panel (it is unbound before the first one). -/
def contigBottom (sym : Bool) (nContig level : Nat) (child : Int) :
    Option Stack → List (Nat × Stack × Stack × List Int) → Py (List Nat)
  | _, [] => .ok []
  | old, (n, bot, _, row) :: rest => do
    let d ← pyGet row level
    if 0 ≤ d ∧ bot ≠ [] then
      let st := lastK bot nContig ++ [child]
      let n ← addContig sym nContig n st
      let v ← calcContigVector st nContig
      let t ← contigBottom sym nContig level child (some st) rest
      return (n + countTrue v) :: t
    else
      match old with
      | none => .error .unbound
      | some st =>
        let v ← calcContigVector st nContig
        let t ← contigBottom sym nContig level child (some st) rest
        return (n + countTrue v) :: t

/-- contiguity.py 229-237: the loop over the panels for a ply added to the top part. -/
def contigTop (nContig level : Nat) (child : Int) : List (Nat × Stack × Stack × List Int) → Py (List Nat)
  | [] => .ok []
  | (n, _, top, row) :: rest => do
    let d ← pyGet row level
    if 0 ≤ d ∧ top ≠ [] then
      let st := child :: top.take nContig
      let _ ← calcContigVector st nContig
      let n ← addContig false nContig n st
      let t ← contigTop nContig level child rest
      return n :: t
    else
      let t ← contigTop nContig level child rest
      return n :: t

/-- contiguity.py 129-239 `calc_n_viola_contig`; one entry (count of the mother node, bottom plies, top plies, row of the
ply drop matrix) per panel.  With `sym` the branches with and without a middle ply (`has_middle_ply`) have the same effect:
both raise if the panel has the ply, both use the same plies otherwise. -/
def calcNViolaContig (panels : List (Nat × Stack × Stack × List Int)) (child : Int) (sym : Bool) (nContig level : Nat)
    (last : Bool) : Py (List Nat) :=
  if last then contigLast sym nContig level child panels
  else if sym ∨ level % 2 = 0 then contigBottom sym nContig level child none panels
  else contigTop nContig level child panels

/-- ten_percent_rule.py 310-312, 320-325: the loop over the plies, `ind_angles_dict` maps an angle to its index. -/
def countPlies (dict : List (Int × Nat)) : Stack → List Rat → Py (List Rat)
  | [], n => .ok n
  | a :: t, n => do
    let i ← dictGet dict a
    let x ← pyGet n i
    countPlies dict t (n.set i (x + 1))

/-- ten_percent_rule.py 308-316 / 318-329: the row of one stacking sequence (`angle2` is the second sublaminate). -/
def pliesPerAngle1 (ini : List Rat) (dict : List (Int × Nat)) (middle : Nat) (angle angle2 : Stack) : Py (List Rat) := do
  let n ← countPlies dict (angle ++ angle2) ini
  if middle ≠ 0 then do
    let a ← pyLast angle
    let i ← dictGet dict a
    let x ← pyGet n i
    return n.set i (x - 1 / 2)
  else return n

/-- ten_percent_rule.py 291-330 `calc_n_plies_per_angle` for arrays of floats (`np.matlib` is taken to be available); without
a second sublaminate its rows are empty. -/
def calcNPliesPerAngle (ini : List Rat) (dict : List (Int × Nat)) (middle : Nat) (rows : List (Stack × Stack)) :
    Py (List (List Rat)) :=
  rows.mapM (fun r => pliesPerAngle1 ini dict middle r.1 r.2)

end Bella
