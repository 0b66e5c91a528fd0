import Verif.Model.Contiguity
import Verif.Model.Constraints
import Verif.Model.Blending
import Mathlib.Data.List.Permutation
/-
Models of src/RELAY/repair_diso_contig.py, repair_diso_contig_tools.py, repair_from_outside_sym.py,
repair_from_inside_sym.py, repair_from_outside_asym.py, repair_from_inside_asym.py and of
`calc_delta_angle_2` of repair_tools.py.

`666` marks a ply of the laminate still to be chosen among the plies of the queue `ply_queue`.  The
queue is changed in place in the code: the functions return what is left of it.
-/
namespace Bella

/-! ### tools -/

/-- repair_tools.py 67-74 `calc_delta_angle_2`: first entry of smallest absolute value. -/
def calcDeltaAngle2 (a1 a2 : Int) : Int :=
  let x := a2 - a1
  let y := 180 + a2 - a1
  let z := a2 - 180 - a1
  let r := if x.natAbs ≤ y.natAbs ∧ x.natAbs ≤ z.natAbs then x
    else if y.natAbs ≤ z.natAbs then y else z
  if r = -90 then 90 else r

/-- repair_diso_contig_tools.py 268-289: the loop of `order_plies_to_test` over the pairs (angle,
difference) not yet listed; instead of overwriting the absolute difference of a listed angle by 666,
the pair is removed. -/
def orderLoop : Nat → List (Int × Int) → List Int
  | 0, _ => []
  | fuel + 1, l =>
    match l.filter (fun p => l.all (fun q => decide (p.2.natAbs ≤ q.2.natAbs))) with
    | [] => []
    | [x] => x.1 :: orderLoop fuel (l.erase x)
    | [x, y] => (if x.2 > 0 then [x.1, y.1] else [y.1, x.1]) ++
        orderLoop fuel ((l.erase x).erase y)
    | x :: _ => x.1 :: orderLoop fuel (l.erase x)

/-- repair_diso_contig_tools.py 240-297 `order_plies_to_test`. -/
def orderPlies (adjacent queue : List Int) (angles : List Int) : Py (List Int) :=
  match adjacent with
  | [] => .ok (npUnique queue)
  | [a] => .ok ((orderLoop angles.length (angles.map (fun x => (x, calcDeltaAngle2 a x)))).filter
      (fun x => queue.contains x))
  | _ => .error (.exc "Case not considered yet")

/-- repair_diso_contig_tools.py 33-46, one column: the rows with the smallest entry in the column.
(The code sorts the rows with respect to the column and keeps the first ones; their order does not
influence the result.) -/
def keepMinCol (ind : Nat) (rows : List (List Nat)) : List (List Nat) :=
  rows.filter (fun r => rows.all (fun r' => decide (r.getD ind 0 ≤ r'.getD ind 0)))

/-- repair_diso_contig_tools.py 33-51, the loop over the columns. -/
def smallestLoop : List Nat → List (List Nat) → Option (List Nat)
  | [], rows => rows.head?
  | ind :: rest, rows =>
    let rows' := keepMinCol ind rows
    if rows'.length = 1 then rows'.head? else smallestLoop rest rows'

/-- repair_diso_contig_tools.py 22-51 `smallest_row`. -/
def smallestRow (rows : List (List Nat)) : Option (List Nat) :=
  match rows with
  | [] => none
  | r :: _ => smallestLoop (List.range r.length) rows

/-! ### the search common to the four functions -/

/-- `for angle in angles_to_test: … break`: the first acceptable angle. -/
def firstOk (ok : Int → Py Bool) : List Int → Py (Option Int)
  | [] => .ok none
  | a :: l => do
    let b ← ok a
    if b then pure (some a) else firstOk ok l

/-- `for ind_ply_2 in ind_2: …`, e.g. repair_from_outside_sym.py 54-127: index of the ply chosen, its
angle, and whether it comes from the queue. -/
def pickPly (ss : Stack) (order : List Int) (ok : Int → Py Bool) :
    List Nat → Py (Option (Nat × Int × Bool))
  | [] => .ok none
  | i :: rest =>
    if nth ss i ≠ 666 then do
      let b ← ok (nth ss i)
      if b then pure (some (i, nth ss i, false)) else pickPly ss order ok rest
    else do
      let r ← firstOk ok order
      match r with
      | some a => pure (some (i, a, true))
      | none => pickPly ss order ok rest

/-- `for ind_ply_1 in ind_1: …`, e.g. repair_from_outside_sym.py 50-140, as a loop of `steps` steps over
a state `s` (the plies already placed), the indices of the plies left and the queue.  `adj` gives the
ply next to which the new one is placed, `ok` the tests, `place` the new state.  The result tells
whether an angle was found at all steps, and the number of steps carried out.  The indices are all
different, so that `np.delete(ind_2, np.argwhere(ind_2 == i))` is `erase`. -/
def searchLoop {σ : Type} (ss : Stack) (angles : List Int) (adj : Nat → σ → Int)
    (ok : Nat → σ → Int → Py Bool) (place : Nat → σ → Int → σ) :
    Nat → Nat → σ → List Nat → List Int → Py (Bool × Nat × σ × List Nat × List Int)
  | 0, k, s, ind2, q => .ok (true, k, s, ind2, q)
  | steps + 1, k, s, ind2, q => do
    let order ← orderPlies [adj k s] q angles
    let r ← pickPly ss order (ok k s) ind2
    match r with
    | none => pure (false, k, s, ind2, q)
    | some (i, a, fromQueue) =>
      searchLoop ss angles adj ok place steps (k + 1) (place k s a) (ind2.erase i)
        (if fromQueue then q.erase a else q)

/-- e.g. repair_from_outside_sym.py 152-156: the plies of the given indices, with plies of the queue for
those not determined; also what is left of the queue. -/
def fillPlies (ss : Stack) : List Nat → List Int → Py (List Int × List Int)
  | [], q => .ok ([], q)
  | i :: rest, q =>
    if nth ss i ≠ 666 then do
      let r ← fillPlies ss rest q
      pure (nth ss i :: r.1, r.2)
    else match q with
      | [] => .error .indexError
      | a :: q' => do
        let r ← fillPlies ss rest q'
        pure (a :: r.1, r.2)

/-- The permutations accepted by the test: `for elem in itertools.permutations(range(D)): …`. -/
def keepPerms (test : List Nat → Py Bool) : List (List Nat) → Py (List (List Nat))
  | [] => .ok []
  | p :: ps => do
    let b ← test p
    let r ← keepPerms test ps
    pure (if b then p :: r else r)

/-- `remaining_plies[elem]`. -/
def permute (l : List Int) (p : List Nat) : List Int := p.map (fun i => nth l i)

/-- `good_permut = smallest_row(good_permut)` for the permutations whose group of plies passes the
test; the result does not depend on the order in which the permutations are listed. -/
def bestPerm (remaining : List Int) (test : List Int → Py Bool) : Py (Option (List Nat)) := do
  let good ← keepPerms (fun p => test (permute remaining p)) (List.range remaining.length).permutations'
  pure (smallestRow good)

/-- The tests of a new ply `a` next to the ply `b`: disorientation, and contiguity in a window, e.g.
repair_from_outside_sym.py 60-82. -/
def testPly (c : Cons) (a b : Int) (window : Stack) : Py Bool :=
  if c.diso = true ∧ isDiso a b c.deltaAngle = false then .ok false
  else if c.contig then isContig window c.nContig else .ok true

/-- The tests of a part of the laminate, e.g. repair_from_outside_sym.py 184-189. -/
def testPart (c : Cons) (part : Stack) : Py Bool := do
  let d ← isDisoSs part c.deltaAngle false none none
  if c.diso = true ∧ d = false then .ok false
  else if c.contig then isContig part c.nContigC else .ok true

/-- Whether two plies are protected on each face: `constraints.dam_tol` with the attributes tested in
repair_diso_contig_tools.py 76-96. -/
def twoProtected (c : Cons) (attr : DamTolAttr) : Bool := c.damTol && attr.twoPlies

/-- repair_from_outside_sym.py 65-78, 159-169: `max(1, x)` or `max(0, x)`.  Because the second test is
an `if` instead of an `elif`, the value set for the rules 2 and 3 is overwritten. -/
def miniOf (c : Cons) (attr : DamTolAttr) (x : Nat) : Nat :=
  if c.damTol = true ∧ attr = .nPlies 2 then max 1 x else x

/-! ### symmetric laminates -/

/-- The symmetric laminate of half `s` with the middle ply of `ss` if its size is odd, e.g.
repair_from_outside_sym.py 136-139. -/
def mirrorWith (ss s : Stack) : Stack :=
  if ss.length % 2 = 1 then s ++ [nth ss (ss.length / 2)] ++ s.reverse else s ++ s.reverse

/-- repair_from_outside_sym.py 159-189: the test of the last plies.  `stack_test[-0:]` is the whole
array. -/
def outsideSymTest (c : Cons) (attr : DamTolAttr) (ss stack : Stack) (D : Nat) (group : Stack) :
    Py Bool :=
  let t := stack.drop (miniOf c attr (stack.length - D - 1)) ++ group
  testPart c (if ss.length % 2 = 1 then t ++ [nth ss (ss.length / 2)] ++ (lastK t D).reverse
    else t ++ (lastK t D).reverse)

/-- repair_from_outside_sym.py 26-211 `repair_diso_contig_from_outside_sym`. -/
def repairOutsideSym (c : Cons) (attr : DamTolAttr) (nD1 : Nat) (ss : Stack) (q : List Int) :
    Py (Stack × Bool × List Int) :=
  let h := ss.length / 2
  let s0 := if twoProtected c attr then 2 else 1
  if ss.length < s0 then .error .indexError
  else do
    let (found, _, stack, ind2, q) ← searchLoop (σ := Stack) ss c.angles
      (fun _ s => nth s (s.length - 1))
      (fun _ s a => testPly c a (nth s (s.length - 1))
        ((s ++ [a]).drop (miniOf c attr (s.length + 1 - c.nContig - 1))))
      (fun _ s a => s ++ [a]) (h - nD1 - s0) 0 (ss.take s0) (List.range' s0 (h - s0)) q
    let (remaining, q) ← fillPlies ss ind2 q
    if found = false then .ok (mirrorWith ss (stack ++ remaining), false, q)
    else if stack.length < h - nD1 then .error (.exc "This should not happen anymore")
    else do
      let best ← bestPerm remaining (outsideSymTest c attr ss stack remaining.length)
      match best with
      | none => .ok (mirrorWith ss (stack ++ remaining), false, q)
      | some p =>
        let res := mirrorWith ss (stack ++ permute remaining p)
        if res.length ≠ ss.length then .error (.exc "This should not happen") else .ok (res, true, q)

/-- repair_from_inside_sym.py 126-142: the test of the last plies. -/
def insideSymTest (c : Cons) (dt stack : Stack) (D : Nat) (group : Stack) : Py Bool :=
  let t := if c.damTol then lastK dt 1 ++ group else group
  testPart c ((t ++ stack ++ t.reverse).take (2 + 2 * c.nContig + D))

/-- repair_from_inside_sym.py 26-161 `repair_diso_contig_from_inside_sym`. -/
def repairInsideSym (c : Cons) (attr : DamTolAttr) (nD1 : Nat) (ss : Stack) (q : List Int) :
    Py (Stack × Bool × List Int) :=
  let n := ss.length
  let k0 := if c.damTol then (if twoProtected c attr then 2 else 1) else 0
  if n = 0 ∨ n < k0 then .error .indexError
  else do
    let hi := n / 2 + n % 2 - 1
    let dt := ss.take k0
    let init := if n % 2 = 0 then [nth ss (n / 2), nth ss (n / 2)] else [nth ss (n / 2)]
    let (found, _, stack, ind2, q) ← searchLoop (σ := Stack) ss c.angles
      (fun _ s => nth s (s.length - 1))
      (fun _ s a => testPly c a (nth s 0) ((a :: (s ++ [a])).take (2 * c.nContig)))
      (fun _ s a => a :: (s ++ [a])) (hi - (k0 + nD1)) 0 init (List.range' k0 (hi - k0)).reverse q
    let (remaining, q) ← fillPlies ss ind2 q
    if found = false then
      .ok (dt ++ (remaining.reverse ++ stack ++ remaining) ++ dt.reverse, false, q)
    else if stack.length + 2 * dt.length < n - 2 * nD1 then
      .error (.exc "This should not happen anymore")
    else do
      let best ← bestPerm remaining (insideSymTest c dt stack remaining.length)
      match best with
      | none => .ok (dt ++ (remaining.reverse ++ stack ++ remaining) ++ dt.reverse, false, q)
      | some p =>
        let g := permute remaining p
        let res := dt ++ g ++ stack ++ g.reverse ++ dt.reverse
        if res.length ≠ n then .error (.exc "This should not happen") else .ok (res, true, q)

/-! ### asymmetric laminates -/

/-- `indices[::2] = a; indices[1::2] = b`. -/
def interleaveInd : List Nat → List Nat → List Nat
  | [], b => b
  | x :: a, [] => x :: a
  | x :: a, y :: b => x :: y :: interleaveInd a b

/-- repair_diso_contig_tools.py 129-157: the order of the plies from the outside; the plies 0..`b`-1
and `n`-`b`..`n`-1 are left out. -/
def outsideOrder (n b : Nat) : List Nat :=
  interleaveInd (List.range' (n / 2) (n - b - n / 2)).reverse (List.range' b (n / 2 - b))

/-- repair_from_outside_asym.py 173-203: the test of the last plies. -/
def outsideAsymTest (c : Cons) (attr : DamTolAttr) (top bottom : Stack) (D : Nat) (group : Stack) :
    Py Bool :=
  let miniBottom := miniOf c attr (bottom.length - D - 1)
  let miniTop := min (if c.damTol = true ∧ attr = .nPlies 2 then bottom.length - 1 else bottom.length) (D + 1)
  testPart c (top.drop miniBottom ++ group ++ bottom.take miniTop)

/-- repair_from_outside_asym.py 27-220 `repair_diso_contig_from_outside_asym`. -/
def repairOutsideAsym (c : Cons) (attr : DamTolAttr) (nD1 : Nat) (ss : Stack) (q : List Int) :
    Py (Stack × Bool × List Int) :=
  let n := ss.length
  let s0 := if twoProtected c attr then 2 else 1
  if n < s0 then .error .indexError
  else do
    let indices := outsideOrder n (s0 - 1)
    let (found, _, (top, bottom), ind2, q) ← searchLoop (σ := Stack × Stack) ss c.angles
      (fun k s => if k % 2 = 0 then nth s.2 0 else nth s.1 (s.1.length - 1))
      (fun k s a => if k % 2 = 0 then testPly c a (nth s.2 0) ((a :: s.2).take (2 * c.nContig))
        else testPly c a (nth s.1 (s.1.length - 1)) (lastK (s.1 ++ [a]) (2 * c.nContig)))
      (fun k s a => if k % 2 = 0 then (s.1, a :: s.2) else (s.1 ++ [a], s.2))
      (indices.length - nD1 - 2) 0 (ss.take s0, ss.drop (n - s0)) (indices.drop 2) q
    let (remaining, q) ← fillPlies ss ind2 q
    if found = false then .ok (top ++ remaining ++ bottom, false, q)
    else if bottom.length + top.length < n - nD1 then .error (.exc "This should not happen anymore")
    else do
      let best ← bestPerm remaining (outsideAsymTest c attr top bottom remaining.length)
      match best with
      | none => .ok (top ++ remaining ++ bottom, false, q)
      | some p =>
        let res := top ++ permute remaining p ++ bottom
        if res.length ≠ n then .error (.exc "This should not happen") else .ok (res, true, q)

/-- repair_from_inside_asym.py 134-145, 215-226: plies placed alternately before (even step) and after
the plies already placed. -/
def placeAlternately : Nat → List Int → Stack → Stack
  | _, [], s => s
  | k, a :: l, s => placeAlternately (k + 1) l (if k % 2 = 0 then a :: s else s ++ [a])

/-- repair_from_inside_asym.py 174-209: the test of the last plies. -/
def insideAsymTest (c : Cons) (top stack bottom : Stack) (D : Nat) (group : Stack) : Py Bool := do
  let t := if c.damTol then lastK top 1 ++ group.take (D / 2) ++ stack ++ group.drop (D / 2) ++ bottom.take 1
    else group.take (D / 2) ++ stack ++ group.drop (D / 2)
  let b1 ← testPart c (t.take (3 + D + c.nContig))
  if b1 = false then .ok false
  else if t.length - 4 - D - c.nContig > 0 then testPart c (t.drop (t.length - 4 - D - c.nContig))
  else .ok true

/-- repair_from_inside_asym.py 26-241 `repair_diso_contig_from_inside_asym`. -/
def repairInsideAsym (c : Cons) (attr : DamTolAttr) (nD1 : Nat) (ss : Stack) (q : List Int) :
    Py (Stack × Bool × List Int) :=
  let n := ss.length
  let k0 := if c.damTol then (if twoProtected c attr then 2 else 1) else 0
  if n < 2 * k0 + 1 then .error .indexError
  else do
    let m := n - 2 * k0
    let indices := interleaveInd (List.range' (k0 + m / 2) (m - m / 2)) (List.range' k0 (m / 2)).reverse
    let top := ss.take k0
    let bottom := ss.drop (n - k0)
    let (found, k, stack, ind2, q) ← searchLoop (σ := Stack) ss c.angles
      (fun k s => if k % 2 = 0 then nth s 0 else nth s (s.length - 1))
      (fun k s a => if k % 2 = 0 then testPly c a (nth s 0) ((a :: s).take (2 * c.nContig))
        else testPly c a (nth s (s.length - 1)) (lastK (s ++ [a]) (2 * c.nContig)))
      (fun k s a => if k % 2 = 0 then a :: s else s ++ [a])
      (indices.length - nD1 - 1) 0 [nth ss (k0 + m / 2)] (indices.drop 1) q
    if found = false then do
      let (remaining, q) ← fillPlies ss ind2 q
      let res := top ++ placeAlternately (k + 1) remaining stack ++ bottom
      if res.length ≠ n then .error (.exc "This should not happen") else .ok (res, false, q)
    else if bottom.length + top.length + stack.length < n - nD1 then
      .error (.exc "This should not happen anymore")
    else do
      let (remaining, q') ← fillPlies ss (ind2.insertionSort (· ≤ ·)) q
      let best ← bestPerm remaining (insideAsymTest c top stack bottom remaining.length)
      match best with
      | none => do
        let (remaining2, _) ← fillPlies ss ind2 q
        let res := top ++ placeAlternately k remaining2 stack ++ bottom
        if res.length ≠ n then .error (.exc "This should not happen") else .ok (res, false, q')
      | some p =>
        let g := permute remaining p
        let res := top ++ g.take (remaining.length / 2) ++ stack ++ g.drop (remaining.length / 2) ++ bottom
        if res.length ≠ n then .error (.exc "This should not happen") else .ok (res, true, q')

/-! ### repair_diso_contig.py -/

/-- repair_diso_contig.py 52-87 `repair_diso_contig`: laminate, success inwards, success outwards. -/
def repairDisoContig (c : Cons) (attr : DamTolAttr) (nD1 : Nat) (ss : Stack) (q : List Int) :
    Py (Stack × Bool × Bool) := do
  let (s1, inward, q1) ← if c.sym then repairOutsideSym c attr nD1 ss q
    else repairOutsideAsym c attr nD1 ss q
  if inward then pure (s1, true, true)
  else do
    let (s2, outward, _) ← if c.sym then repairInsideSym c attr nD1 s1 q1
      else repairInsideAsym c attr nD1 s1 q1
    pure (s2, false, outward)

/-- repair_diso_contig.py 40-49: the loop over the candidates. -/
def repairListLoop (c : Cons) (attr : DamTolAttr) (nD1 : Nat) :
    Nat → Option Stack → List (Stack × List Int) → Py (Stack × Bool × Bool × Nat)
  | _, none, [] => .error .unbound
  | _, some ss0, [] => .ok (ss0, false, false, 0)
  | ind, first, (ss, q) :: rest => do
    let (s, inward, outward) ← repairDisoContig c attr nD1 ss q
    if inward = true ∨ outward = true then pure (s, inward, outward, ind)
    else repairListLoop c attr nD1 (ind + 1) (some (first.getD s)) rest

/-- repair_diso_contig.py 30-49 `repair_diso_contig_list`. -/
def repairDisoContigList (c : Cons) (attr : DamTolAttr) (nD1 : Nat) (cands : List (Stack × List Int)) :
    Py (Stack × Bool × Bool × Nat) := repairListLoop c attr nD1 0 none cands

end Bella
