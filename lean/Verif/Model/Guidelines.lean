import Verif.Model.Contiguity
import Verif.Model.Constraints
/-
Models of src/guidelines/balance.py, dam_tol.py, ten_percent_rule.py, ply_drop_spacing.py
and one_stack.py
-/
namespace Bella

/-! ### balance.py -/

/-- balance.py 20-46 `is_balanced`: loop over the set of absolute values without 0 and 90
(the order of the set is irrelevant for the result; first-occurrence order here). -/
def isBalanced (ss : Stack) : Bool :=
  let mySet := ((ss.map (fun a => (a.natAbs : Int))).dedup).filter (fun a => a != 0 && a != 90)
  mySet.all (fun angle => ss.count angle == ss.count (-angle))

/-- ply counts `n_plies_per_angle[i]` of an array (out of range: 0, indices come from the
constraint object). -/
def cnt (n : List ℚ) (i : Nat) : ℚ := n.getD i 0

/-- balance.py 69-78 `calc_penalty_bal`, one laminate. -/
def calcPenaltyBal (n : List ℚ) (anglesBal : List (Int × Nat × Nat)) (cummulAreas : ℚ) : ℚ :=
  if n.sum ≠ 0 then
    cummulAreas * (anglesBal.map (fun t => |cnt n t.2.1 - cnt n t.2.2|)).sum / n.sum
  else 0

/-- balance.py 80-93 `calc_penalty_bal`, several laminates. -/
def calcPenaltyBalMp (ns : List (List ℚ)) (anglesBal : List (Int × Nat × Nat))
    (cummulAreas : ℚ) : List ℚ :=
  ns.map (fun n => cummulAreas * (if n.sum ≠ 0 then
    (anglesBal.map (fun t => |cnt n t.2.1 - cnt n t.2.2|)).sum / n.sum else 0))

/-- ten_percent_rule.py 65-72 `calc_ply_counts`, the row of one panel: a dictionary look-up and an
increment per ply (the counters are float16 in the code, exact naturals here). -/
def plyCountsLoop (dict : List (Int × Nat)) : Stack → List ℚ → Py (List ℚ)
  | [], n => .ok n
  | a :: ss, n =>
    match dict.lookup a with
    | none => .error .keyError
    | some i => plyCountsLoop dict ss (n.set i (cnt n i + 1))

/-- ten_percent_rule.py 51-72 `calc_ply_counts`, one panel. -/
def plyCounts (c : Cons) (ss : Stack) : Py (List ℚ) :=
  plyCountsLoop c.indAngles ss (List.replicate c.nAngles 0)

/-! ### dam_tol.py -/

/-- `stack[i]`, `i ≥ 0`. -/
def idxF (ss : Stack) (i : Nat) : Py Int :=
  match ss[i]? with
  | some a => .ok a
  | none => .error .indexError

/-- `stack[-k]`, `k ≥ 1`. -/
def idxB (ss : Stack) (k : Nat) : Py Int := idxF ss.reverse (k - 1)

/-- membership in `set([45, -45])`, dam_tol.py 35. -/
def pm45 (a : Int) : Bool := a == 45 || a == -45

/-- dam_tol.py 40-41 and 56-57. -/
def damTolRule1 (ss : Stack) : Py Bool := do
  let a ← idxF ss 0
  if !pm45 a then return false
  let z ← idxB ss 1
  if !pm45 z then return false
  return true

/-- dam_tol.py 48-50. -/
def damTolRule3 (ss : Stack) : Py Bool := do
  let a ← idxF ss 0
  if !pm45 a then return false
  let b ← idxF ss 1
  if !pm45 b then return false
  let z ← idxB ss 1
  if !pm45 z then return false
  let y ← idxB ss 2
  if !pm45 y then return false
  return true

/-- dam_tol.py 43-46 and 59-62. -/
def damTolRule2 (ss : Stack) : Py Bool := do
  let a ← idxF ss 0
  if !pm45 a then return false
  let b ← idxF ss 1
  if !pm45 b then return false
  let z ← idxB ss 1
  if !pm45 z then return false
  let y ← idxB ss 2
  if !pm45 y then return false
  if a ≠ -b then return false
  if z ≠ -y then return false
  return true

/-- dam_tol.py 12-66 `is_dam_tol`. -/
def isDamTol (ss : Stack) (damTol : Bool) (attr : DamTolAttr) : Py Bool :=
  if !damTol then .ok true
  else match attr with
    | .rule r =>
      if r = 1 then damTolRule1 ss
      else if r = 2 then damTolRule2 ss
      else if r = 3 then damTolRule3 ss
      else .error (.exc "Not coded")
    | .nPlies k =>
      if k = 1 then damTolRule1 ss
      else if k = 2 then damTolRule2 ss
      else .error (.exc "Not coded")

/-! ### ten_percent_rule.py -/

/-- `n[constraints.indexX]`: the attribute is missing when the direction is not allowed. -/
def cntAt (n : List ℚ) (i : Option Nat) : Py ℚ :=
  match i with
  | none => .error .typeError
  | some i => match n[i]? with
    | some q => .ok q
    | none => .error .indexError

/-- ten_percent_rule.py 110-123 `is_ten_percent_rule`, ply-count variant. With no ply at all, numpy
gives nan shares, all comparisons are false and the result is True. -/
def isTenPercentCounts (c : Cons) (n : List ℚ) : Py Bool := do
  if c.pTot > 0 then
    let tot := n.sum
    let n0 ← cntAt n c.index0
    let n45 ← cntAt n c.index45
    let n90 ← cntAt n c.index90
    let n135 ← cntAt n c.index135
    if tot = 0 then return true
    if n0 / tot < c.p0 ∨ n45 / tot < c.p45 ∨ n90 / tot < c.p90 ∨ n135 / tot < c.p135 ∨
        n45 / tot + n135 / tot < c.p45_135 then
      return false
    return true
  else return true

/-- ten_percent_rule.py 173-192: the comparisons of the stack variant, on shares. -/
def tenPercentTests (c : Cons) (eq45 eq0 : Bool) (s0 s45 s90 s135 : ℚ) : Bool :=
  if eq0 = false ∧ (s0 + tol15 < c.p0 ∨ s90 + tol15 < c.p90) then false
  else if eq0 = true ∧ s0 + s90 + tol15 < c.p0 + c.p90 then false
  else if eq45 = false ∧ (s45 + tol15 < c.p45 ∨ s135 + tol15 < c.p135) then false
  else if eq45 = true ∧ s45 + s135 + tol15 < c.p45 + c.p135 then false
  else if s45 + s135 + tol15 < c.p45_135 then false
  else true

/-- ten_percent_rule.py 130-160: count of the plies at `angle`, with an optional ply queue.
Line 142 reads `stack[stack.size % 2]` for the middle ply. -/
def tenPercentCount (sym : Bool) (ss : Stack) (queue : Option (List Int)) (angle : Int) : ℚ :=
  match queue with
  | some q =>
    if sym then
      let base : ℚ := 2 * (((ss.take (ss.length / 2)).count angle + q.count angle : Nat) : ℚ)
      if ss.length % 2 ≠ 0 then
        (if nth ss (ss.length % 2) = angle then base + 1 else base)
      else base
    else ((ss.count angle + q.count angle : Nat) : ℚ)
  | none => (ss.count angle : ℚ)

/-- ten_percent_rule.py 125-192 `is_ten_percent_rule`, stack variant.
For `sym`, one ply and a queue, `stack[1]` is out of range. -/
def isTenPercentStack (c : Cons) (ss : Stack) (queue : Option (List Int)) (eq45 eq0 : Bool) :
    Py Bool :=
  if queue.isSome ∧ c.sym = true ∧ ss.length = 1 then .error .indexError
  else if ss.length = 0 then .error .zeroDivision
  else
    let tot : ℚ := ss.length
    .ok (tenPercentTests c eq45 eq0
      (tenPercentCount c.sym ss queue 0 / tot) (tenPercentCount c.sym ss queue 45 / tot)
      (tenPercentCount c.sym ss queue 90 / tot) (tenPercentCount c.sym ss queue (-45) / tot))

/-- ten_percent_rule.py 100-108 `is_ten_percent_rule`, lamination-parameter variant (Abdalla). -/
def isTenPercentAbdalla (c : Cons) (lp1 lp2 : ℚ) : Bool :=
  if (1 - 4 * c.pAbdalla) ^ 2 + (1 - 4 * c.pAbdalla) * lp2 - 2 * lp1 ^ 2 + tol15 < 0 then false
  else if 1 - 4 * c.pAbdalla - lp2 + tol15 < 0 then false
  else true

/-- The sum of the five shortfalls, ten_percent_rule.py 222-227 = 256-261 = 276-281. -/
def shortfall (c : Cons) (s0 s45 s90 s135 : ℚ) : ℚ :=
  max 0 (c.p0 - s0) + max 0 (c.p45 - s45) + max 0 (c.p90 - s90) + max 0 (c.p135 - s135)
    + max 0 (c.p45_135 - s45 - s135)

/-- ten_percent_rule.py 195-238 `calc_penalty_10_ss`, one laminate (`mp=False`) without
lamination parameters.  An empty laminate gives nan shares: modelled as a zero-division error. -/
def calcPenalty10Ss (c : Cons) (ss : Stack) : Py ℚ :=
  if c.pTot > 0 then
    if ss.length = 0 then .error .zeroDivision
    else
      let tot : ℚ := ss.length
      .ok (shortfall c (ss.count 0 / tot) (ss.count 45 / tot) (ss.count 90 / tot)
        (ss.count (-45) / tot))
  else .ok 0

/-- ten_percent_rule.py 263-282 `calc_penalty_10_pc`, one row of the several-laminates branch. -/
def calcPenalty10PcRow (c : Cons) (n : List ℚ) (cummulAreas : ℚ) : Py ℚ := do
  if c.pTot > 0 then
    let tot := n.sum
    if tot = 0 then return cummulAreas * 0
    let n0 ← cntAt n c.index0
    let n45 ← cntAt n c.index45
    let n90 ← cntAt n c.index90
    let n135 ← cntAt n c.index135
    return cummulAreas * shortfall c (n0 / tot) (n45 / tot) (n90 / tot) (n135 / tot)
  else return 0

/-- ten_percent_rule.py 241-288 `calc_penalty_10_pc`, one laminate: without any ply the code falls
through to the several-laminates branch and `sum` of a scalar raises TypeError. -/
def calcPenalty10Pc (c : Cons) (n : List ℚ) (cummulAreas : ℚ) : Py ℚ :=
  if c.pTot > 0 ∧ n.sum = 0 then (if n = [] then .ok 0 else .error .typeError)
  else calcPenalty10PcRow c n cummulAreas

/-! ### ply_drop_spacing.py -/

/-- ply_drop_spacing.py 137-141 and 145-148: first index `≥ i` holding a ply drop, else `size`. -/
def nextDrop (ss : Stack) (i : Nat) : Nat :=
  if h : i < ss.length then
    if ss[i] = -1 then i else nextDrop ss (i + 1)
  else i
termination_by ss.length - i

theorem le_nextDrop (ss : Stack) (i : Nat) : i ≤ nextDrop ss i := by
  induction h : ss.length - i generalizing i with
  | zero => unfold nextDrop; split <;> omega
  | succ n ih =>
    unfold nextDrop
    split
    · split
      · omega
      · have := ih (i + 1) (by omega); omega
    · omega

/-- ply_drop_spacing.py 143-153: the loop over the pairs of successive ply drops. -/
def spacingLoop (ss : Stack) (minDrop : Int) (index1 index2 : Nat) (penal : Int) : Int :=
  if index2 < ss.length then
    let j := nextDrop ss index2
    let penal' := if j < ss.length ∧ (j : Int) - index1 - 1 < minDrop then
      penal + (minDrop - ((j : Int) - index1 - 1)) else penal
    spacingLoop ss minDrop j (j + 1) penal'
  else penal
termination_by ss.length - index2
decreasing_by have := le_nextDrop ss index2; omega

/-- ply_drop_spacing.py 123-154 `calc_penalty_spacing_1ss`. -/
def calcPenaltySpacing1ss (ss : Stack) (minDrop : Int) : Py ℚ :=
  let i1 := nextDrop ss 0
  if ss.length = 0 then .error .zeroDivision
  else .ok ((spacingLoop ss minDrop i1 (i1 + 1) 0 : ℚ) / ss.length)

/-- ply_drop_spacing.py 61-75: the layout on which the spacing of two neighbouring panels is
measured: positions dropped in both panels are deleted, the first panel is used if it still has
ply drops, else the second. -/
def spacingLayout (l1 l2 : Stack) : Stack :=
  let kept := (l1.zip l2).filter (fun p => p.1 != -1 || p.1 != p.2)
  let a := kept.map Prod.fst
  if a.contains (-1) then a else kept.map Prod.snd

/-- ply_drop_spacing.py 44-84 `calc_penalty_spacing` on the blending strip, with complete layouts
(`pdl_before`/`pdl_after` absent); `boundaries` is the list of neighbouring panels with weights. -/
def calcPenaltySpacing (pdl : List Stack) (boundaries : List (Nat × Nat × ℚ)) (minDrop : Int) :
    Py ℚ :=
  boundaries.foldlM (init := (0 : ℚ)) (fun acc b => do
    let l1 := pdl.getD b.1 []
    let l2 := pdl.getD b.2.1 []
    if l1.length = 1 ∨ l2.length = 1 then return acc
    let p ← calcPenaltySpacing1ss (spacingLayout l1 l2) minDrop
    return acc + b.2.2 * p)

/-! ### one_stack.py -/

/-- The recurring shape of one_stack.py: `if enabled: if not test: raise Exception(msg)`. -/
def requireRule (enabled : Bool) (test : Py Bool) (msg : String) : Py Unit :=
  if enabled then
    match test with
    | .error e => .error e
    | .ok ok => if !ok then .error (.exc msg) else .ok ()
  else .ok ()

/-- one_stack.py 28-74 `check_lay_up_rules`.  `ipoOk` stands for the test of lines 47-48 on the
in-plane lamination parameters (src/CLA is not in the repository). -/
def checkLayUpRules (c : Cons) (ss : Stack) (ipoOk : Stack → Bool) (noIpo noBal eq45 eq0 : Bool)
    (nPlies : Option Nat) : Py Unit := do
  requireRule nPlies.isSome (.ok (nPlies == some ss.length)) "Wrong number of plies"
  requireRule c.damTol (isDamTol ss c.damTol c.damTolAttr)
    "Damage tolerance constraint not satisfied"
  requireRule (!noBal && c.bal) (.ok (isBalanced ss)) "Balance constraint not satisfied"
  requireRule (!noIpo && c.ipo) (.ok (ipoOk ss)) "In plane orthotropy constraint not satisfied"
  requireRule c.diso
    (match c.damTolAttr with
      | .rule r => isDisoSs ss c.deltaAngle c.damTol (some r) none
      | .nPlies k => isDisoSs ss c.deltaAngle c.damTol (some k) none)
    "Disorientation constraint not satisfied"
  requireRule c.contig (isContig ss c.nContig) "Contiguity constraint not satisfied"
  requireRule c.rule10 (isTenPercentStack c ss none eq45 eq0) "10% rule not satisfied"

/-- one_stack.py 83-85: the covering test of `check_ply_drop_rules` (first and last column). -/
def coveringTest (sst : List Stack) : Bool :=
  sst.all (fun row => row.head? != some (-1) && row.getLast? != some (-1))

/-- one_stack.py 76-104 `check_ply_drop_rules` on the blending strip. -/
def checkPlyDropRules (c : Cons) (sst : List Stack) (boundaries : List (Nat × Nat × ℚ)) :
    Py Unit := do
  requireRule c.covering (.ok (coveringTest sst)) "Covering constraint not satisfied"
  requireRule c.pdlSpacing
    (match calcPenaltySpacing sst boundaries c.minDrop with
      | .error e => .error e
      | .ok p => .ok (decide (p = 0)))
    "Ply drop spacing rule not satisfied"

end Bella
