import Verif.Model.Blending
/-
Model of src/divers/subset_sum.py (a library of functions on subset sums; the other modules do not import it).

The loops `while True` have a bound on the number of iterations (`fuel`); `none`: still running.  `np.bool` is taken to be
available, `np.int32` and `float` entries are exact.  Not modelled: the functions that only print.
-/
namespace Bella

/-- subset_sum.py 112-126: the loop over the entries, from the last one (`l` is the array reversed); `false`: the loop ends without
`return`. -/
def subsetIncr : List Bool → List Bool × Bool
  | [] => ([], false)
  | false :: l => (true :: l, true)
  | true :: l => let r := subsetIncr l; (false :: r.1, r.2)

/-- subset_sum.py 42-126 `subset_next`, `t` having `n` entries. -/
def subsetNext (t : List Bool) (rank : Int) : List Bool × Int :=
  if rank = -1 then (t, 0)
  else
    let r := subsetIncr t.reverse
    (r.1.reverse, if r.2 then rank + 1 else -1)

/-- subset_sum.py 228-231 and 426-429: the sum of the weights chosen. -/
def subsetTotal (w : List Int) (s : List Bool) : Int :=
  (List.zipWith (fun (b : Bool) (x : Int) => if b then x else 0) s w).sum

/-- subset_sum.py 220-235: the loop of `subset_sum_count`. -/
def countLoop (w : List Int) (t : Int) : Nat → List Bool → Int → Nat → Option Nat
  | 0, _, _, _ => none
  | fuel + 1, s, rank, count =>
    let r := subsetNext s rank
    if r.2 = -1 then some count
    else countLoop w t fuel r.1 r.2 (if subsetTotal w r.1 = t then count + 1 else count)

/-- subset_sum.py 186-237 `subset_sum_count`, for an array `w` of `n` weights. -/
def subsetSumCount (fuel : Nat) (w : List Int) (t : Int) : Option Nat :=
  countLoop w t fuel (List.replicate w.length false) (-1) 0

/-- subset_sum.py 417-435: the loop of `subset_sum_find`; without a solution the array `s` is returned as it was made. -/
def findLoop (w : List Int) (t : Int) : Nat → List Bool → Int → Option (List Bool)
  | 0, _, _ => none
  | fuel + 1, s, rank =>
    let r := subsetNext s rank
    if r.2 = -1 then some (List.replicate w.length false)
    else if subsetTotal w r.1 = t then some r.1
    else findLoop w t fuel r.1 r.2

/-- subset_sum.py 377-437 `subset_sum_find`, for an array `w` of `n` weights. -/
def subsetSumFind (fuel : Nat) (w : List Int) (t : Int) : Option (List Bool) :=
  findLoop w t fuel (List.replicate w.length false) (-1)

/-- subset_sum.py 3-40 `backup_one`, `told` entries being looked at (none for a negative `told`). -/
def backupOne (u : List Int) : Nat → Int
  | 0 => -1
  | k + 1 => if u.getD k 0 = 1 then (k : Int) else backupOne u k

/-- `u[t] = x` for an index that may be `-1` (the last entry). -/
def setEntry (u : List Int) (t : Int) (x : Int) : Py (List Int) :=
  if 0 ≤ t then (if t.toNat < u.length then .ok (u.set t.toNat x) else .error .indexError)
  else if (-t).toNat ≤ u.length then .ok (u.set (u.length - (-t).toNat) x) else .error .indexError

/-- subset_sum.py 632-642 and 660-673: `u[t] = 0`, then the last chosen value is replaced by the one after it; a negative index: there is
no chosen value. -/
def backTrack (u : List Int) (t : Int) : Py (List Int × Int) := do
  let u ← setEntry u t 0
  let b := backupOne u t.toNat
  if b < 0 then return (u, b)
  else do
    let u ← setEntry u b 0
    let u ← setEntry u (b + 1) 1
    return (u, b + 1)

/-- `np.dot(u, v)`. -/
def npDot (u v : List Int) : Py Int :=
  if u.length = v.length then .ok (List.zipWith (fun (x y : Int) => x * y) u v).sum else .error .valueError

/-- subset_sum.py 644-675: the loop of `subset_sum_next`. -/
def sumNextLoop (s : Int) (v : List Int) : Nat → List Int → Int → Option (Py (Bool × List Int × Int))
  | 0, _, _ => none
  | fuel + 1, u, t =>
    match npDot u v with
    | .error e => some (.error e)
    | .ok su =>
      if su < s ∧ t < (v.length : Int) - 1 then
        match setEntry u (t + 1) 1 with
        | .error e => some (.error e)
        | .ok u => sumNextLoop s v fuel u (t + 1)
      else if su = s then some (.ok (true, u, t))
      else
        match backTrack u t with
        | .error e => some (.error e)
        | .ok (u, t) => if t < 0 then some (.ok (false, u, t)) else sumNextLoop s v fuel u t

/-- subset_sum.py 584-675 `subset_sum_next`, for an array `v` of `n` values. -/
def subsetSumNext (fuel : Nat) (s : Int) (v : List Int) (more : Bool) (u : List Int) (t : Int) :
    Option (Py (Bool × List Int × Int)) :=
  if !more then sumNextLoop s v fuel (List.replicate v.length 0) (-1)
  else
    match backTrack u t with
    | .error e => some (.error e)
    | .ok (u, t) => if t < 0 then some (.ok (false, u, t)) else sumNextLoop s v fuel u t

/-- subset_sum.py 718-723, the intended use of `subset_sum_next` (`subset_sum_next_test`): the subsets found by calling it until
`more` is false. -/
def subsetSumAll (s : Int) (v : List Int) : Nat → Bool → List Int → Int → Option (Py (List (List Int)))
  | 0, _, _, _ => none
  | fuel + 1, more, u, t =>
    match subsetSumNext fuel s v more u t with
    | none => none
    | some (.error e) => some (.error e)
    | some (.ok (more, u, t)) =>
      if !more then some (.ok [])
      else
        match subsetSumAll s v fuel more u t with
        | some (.ok l) => some (.ok (u :: l))
        | other => other

/-- subset_sum.py 861-867: the loop over `j` for the weight `w`, from `k - 1` down to 0; `k - 1 + w` is at most the last index of
the table. -/
def tableRow (w : Nat) : Nat → List Nat → List Nat
  | 0, table => table
  | j + 1, table =>
    tableRow w j
      (if j = 0 then (if table.getD w 0 = 0 then table.set w w else table)
       else if table.getD j 0 ≠ 0 ∧ table.getD (j + w) 0 = 0 then table.set (j + w) w else table)

/-- subset_sum.py 808-869 `subset_sum_table`, for an array `w` of `n` weights that are not negative. -/
def subsetSumTable (t : Nat) (w : List Nat) : List Nat :=
  w.foldl (fun (table : List Nat) (x : Nat) => if x ≤ t then tableRow x (t - x + 1) table else table) (List.replicate (t + 1) 0)

/-- subset_sum.py 1061-1069: the loop of `subset_sum_table_to_list`; an entry 0 is added for ever (`none`).  The number `i`
decreases otherwise. -/
def tableToListLoop (table : List Nat) : Nat → Nat → Option (Py (List Nat))
  | 0, i => if 0 < i then none else some (.ok [])
  | fuel + 1, i =>
    if 0 < i then
      match pyGet table i with
      | .error e => some (.error e)
      | .ok x =>
        if x = 0 then none
        else match tableToListLoop table fuel (i - x) with
          | some (.ok l) => some (.ok (x :: l))
          | other => other
    else some (.ok [])

/-- subset_sum.py 1013-1071 `subset_sum_table_to_list`: the number of items and the items; `none`: it does not end. -/
def subsetSumTableToList (t : Nat) (table : List Nat) : Option (Py (Nat × List Nat)) :=
  match tableToListLoop table t t with
  | none => none
  | some (.error e) => some (.error e)
  | some (.ok l) => some (.ok (l.length, l))

end Bella
