import Verif.Model.LaylaSearch
import Verif.Model.Objectives
import Verif.Model.Divers
/-
Model of the penalties of LAYLA: src/LAYLA_V02/beam_search.py 216-222, 249-250 and 327-358, src/LAYLA_V02/outer_step_sym.py
134-195 and outer_step_asym.py 136-195 (the same lines but for the names of the results).

Exact rationals instead of floating-point numbers.  `calc_penalty_ipo_oopo_ss`, which does not exist in the repository, is a
parameter; so is `objectives`.
-/
namespace Bella

/-- What the penalties read: the coefficients and the switches of `Parameters`, `cummul_mom_areas[level, 0]`, and the two
penalties of `calc_penalty_ipo_oopo_ss` for a child of a node (beam_search.py 329-334) and for the design of an outer step
(outer_step_sym.py 150-153).  As in `calc_penalty_ipo_oopo_mp`, the penalties of a laminate do not depend on the laminates given
with it. -/
structure LaylaPens (V : Type) where
  coeff10 : ℚ
  coeffBal : ℚ
  coeffOopo : ℚ
  tenSwitch : Bool
  balSwitch : Bool
  area : Nat → ℚ
  ipo : Nat → V → ℚ
  oopo : Nat → V → ℚ
  ipoFinal : V → ℚ
  oopoFinal : V → ℚ

variable {V : Type}

/-- beam_search.py 185, 216-222 and 249-250: `penalty_10` (the number 0, broadcast over the children, when there is none). -/
def laylaPenalty10 (c : Cons) (p : LaylaPens V) (lastLevel : Bool) (kids : List (V × List ℚ)) : Py (List ℚ) :=
  if lastLevel = true ∧ c.rule10 = true ∧ p.tenSwitch = true then kids.mapM (fun (k : V × List ℚ) => calcPenalty10Pc c k.2 1)
  else .ok (List.replicate kids.length 0)

/-- beam_search.py 340-346: `penalty_ipo_pc`.  `ply_counts` is the variable of the loop over the children, hence the ply counts of
the child treated last. -/
def laylaPenaltyBal (c : Cons) (p : LaylaPens V) (level : Nat) (kids : List (V × List ℚ)) : List ℚ :=
  if c.ipo = true ∧ p.balSwitch = true then
    kids.getLast?.toList.map (fun (k : V × List ℚ) => calcPenaltyBal k.2 c.anglesBal (p.area level))
  else List.replicate kids.length 0

/-- beam_search.py 216-222, 249-250 and 327-358: the factors of the objectives of the children of a node. -/
def laylaFactors (c : Cons) (p : LaylaPens V) (level : Nat) (lastLevel : Bool) (kids : List (V × List ℚ)) : Py (List ℚ) := do
  let p10 ← laylaPenalty10 c p lastLevel kids
  let ipo := kids.map (fun (k : V × List ℚ) => p.ipo level k.1)
  let oopo := kids.map (fun (k : V × List ℚ) => p.oopo level k.1)
  let bal ← maxArrays (laylaPenaltyBal c p level kids) ipo
  return (List.range kids.length).map (fun (i : Nat) =>
    objMultiSs 1 (p10.getD i 0) (bal.getD i 0) (oopo.getD i 0) p.coeff10 p.coeffBal p.coeffOopo)

/-- outer_step_sym.py 166-168: the penalty of a design for the 10% rule. -/
def laylaFinalTen (c : Cons) (counts : List ℚ) : Py ℚ := if c.rule10 then calcPenalty10Pc c counts 1 else .ok 0

/-- outer_step_sym.py 134-195, outer_step_asym.py 136-195: the objective of the design of an outer step.  `objective` is
`objectives` with `lampam_weightings[-1]`.  The attributes `penalty_ipo_switch` and `penalty_bal_switch` of the constraints,
read when the penalty before them in the condition is not zero, are never set. -/
def laylaFinalObj (c : Cons) (p : LaylaPens V) (objective : V → ℚ) (v : V) (ss : Stack) : Py ℚ := do
  let counts ← plyCountsLoop c.indAngles ss (List.replicate c.nAngles 0)
  let pc := if c.ipo = true ∧ p.balSwitch = true then calcPenaltyBal counts c.anglesBal 1 else 0
  let p10 ← laylaFinalTen c counts
  let obj := objMultiSs (objective v) p10 (max pc (p.ipoFinal v)) (p.oopoFinal v) p.coeff10 p.coeffBal p.coeffOopo
  if c.rule10 = true ∧ p10 ≠ 0 then return 10 ^ 10
  else if c.ipo = true ∧ p.ipoFinal v ≠ 0 then
    .error (.exc "AttributeError: 'Constraints' object has no attribute 'penalty_ipo_switch'")
  else if c.ipo = true ∧ pc ≠ 0 then
    .error (.exc "AttributeError: 'Constraints' object has no attribute 'penalty_bal_switch'")
  else return obj

end Bella
