import Verif.Model.Basic
import Mathlib.Data.List.Sort
import Mathlib.Data.List.Dedup
import Mathlib.Algebra.Order.Field.Rat
import Mathlib.Algebra.Order.Ring.Int
/-
Model of src/BELLA/constraints.py
-/
namespace Bella

/-- The attributes of a `Constraints` object, constraints.py 43-167, 182-271, 275-369.
Percentages are exact rationals; the table of cosines/sines (lines 362-369) is not modelled. -/
structure Cons where
  sym : Bool
  bal : Bool
  ipo : Bool
  oopo : Bool
  damTol : Bool
  damTolAttr : DamTolAttr
  covering : Bool
  nCovering : Nat
  rule10 : Bool
  rule10Abdalla : Bool
  pAbdalla : ℚ
  p0 : ℚ
  p45 : ℚ
  p90 : ℚ
  p135 : ℚ
  p45_135 : ℚ
  pTot : ℚ
  diso : Bool
  deltaAngle : Int
  contig : Bool
  nContig : Nat
  /-- `n_contig_c`: `1e10` when contiguity is off -/
  nContigC : Nat
  /-- `set_of_angles` -/
  angles : List Int
  index0 : Option Nat
  index45 : Option Nat
  index90 : Option Nat
  index135 : Option Nat
  /-- `ind_angles_dict`, a dictionary without repeated keys as an association list -/
  indAngles : List (Int × Nat)
  posAngles : List Int
  anglesBal : List (Int × Nat × Nat)
  nAngles : Nat
  pdlSpacing : Bool
  minDrop : Int
  deriving DecidableEq, Repr

/-- Arguments of the constructor, constraints.py 15-40.  The `isinstance` checks on types are
replaced by the Lean types (`n_contig`, `n_covering` are natural numbers here). -/
structure ConsArgs where
  sym : Bool := false
  bal : Bool := false
  oopo : Bool := false
  damTol : Bool := false
  damTolRule : Int := 2
  covering : Bool := false
  nCovering : Nat := 0
  rule10 : Bool := false
  rule10Abdalla : Bool := false
  percent0 : ℚ := 0
  percent45 : ℚ := 0
  percent90 : ℚ := 0
  percent135 : ℚ := 0
  percent45_135 : ℚ := 0
  percentAbdalla : ℚ := 0
  combine45_135 : Bool := true
  calcCombine45_135 : Bool := true
  diso : Bool := false
  deltaAngle : Int := 45
  contig : Bool := false
  nContig : Nat := 1
  setOfAngles : List Int := [0, 45, 90, -45]
  pdlSpacing : Bool := false
  minDrop : Int := 1

/-- `np.unique`: the distinct values in increasing order. -/
def npUnique (l : List Int) : List Int := l.dedup.insertionSort (· ≤ ·)

/-- The tolerance `1e-15` used throughout. -/
def tol15 : ℚ := 1 / 10 ^ 15

/-- A percentage argument outside `[0, 100]`, constraints.py 212, 218, 224, 230, 236. -/
def badPercent (p : ℚ) : Bool := p < 0 || p > 100

/-- constraints.py 174-180: the +45 and -45 percentages are combined or not. -/
def combineFlag (a : ConsArgs) : Bool :=
  if a.calcCombine45_135 then
    if a.percent45 > tol15 + a.percent45_135 / 2 ∨ a.percent135 > tol15 + a.percent45_135 / 2 then
      false
    else true
  else a.combine45_135

/-- The percentages stored by `set_percentages`:
`(Abdalla, 0, 45, 90, 135, 45_135, tot)`. -/
structure Percents where
  pAbdalla : ℚ
  p0 : ℚ
  p45 : ℚ
  p90 : ℚ
  p135 : ℚ
  p45_135 : ℚ
  pTot : ℚ

/-- constraints.py 169-271 `set_percentages`.  (Lines 239-243 only print a warning.) -/
def setPercentages (a : ConsArgs) : Py Percents :=
  let comb := combineFlag a
  let q0 := a.percent0
  let q90 := a.percent90
  let q45_135 := if comb then a.percent45_135 else 0
  let q45 := if comb then 0 else a.percent45
  let q135 := if comb then 0 else a.percent135
  if a.percentAbdalla < 0 ∨ a.percentAbdalla > 249999999 / 10000000 then
    .error (.exc "percent_Abdalla")
  else if badPercent a.percent0 then .error (.exc "percent_0")
  else if badPercent a.percent45 then .error (.exc "percent_45")
  else if badPercent a.percent90 then .error (.exc "percent_90")
  else if badPercent a.percent135 then .error (.exc "percent_135")
  else if badPercent a.percent45_135 then .error (.exc "percent_45_135")
  else if a.rule10 then
    if a.rule10Abdalla then
      .ok ⟨a.percentAbdalla / 100, 0, 0, 0, 0, 0, 0⟩
    else
      .ok ⟨0, q0 / 100, q45 / 100, q90 / 100, q135 / 100, q45_135 / 100,
        max (q0 / 100 + q45 / 100 + q90 / 100 + q135 / 100)
          (q0 / 100 + q45_135 / 100 + q90 / 100)⟩
  else .ok ⟨0, 0, 0, 0, 0, 0, 0⟩

/-- constraints.py 302-311: `ind_angles_dict`. -/
def mkIndAngles (angles : List Int) : List (Int × Nat) :=
  let d := angles.zipIdx
  match angles.idxOf? 90 with
  | some i => d ++ [(-90, i)]
  | none => d

/-- constraints.py 330-342: `angles_bal` (the keys exist because of the check of lines 323-327;
`getD 0` is only for totality). -/
def mkAnglesBal (angles : List Int) (dict : List (Int × Nat)) : List (Int × Nat × Nat) :=
  (angles.filter (fun e => decide (e > 0) && decide (e < 90))).map
    (fun e => (e, (dict.lookup e).getD 0, (dict.lookup (-e)).getD 0))

/-- constraints.py 41-167 and 273-353, the constructor, in the order of the checks. -/
def mkConstraints (a : ConsArgs) : Py Cons :=
  if a.damTol = true ∧ ¬ (a.damTolRule = 1 ∨ a.damTolRule = 2 ∨ a.damTolRule = 3) then
    .error (.exc "dam_tol_rule")
  else if ¬ (a.nCovering = 0 ∨ a.nCovering = 1 ∨ a.nCovering = 2) then
    .error (.exc "n_covering")
  else do
    let covering := if a.damTol then true else a.covering
    let n1 := if a.damTol then (if a.damTolRule = 1 then max a.nCovering 1 else 2)
      else a.nCovering
    let nCov := if covering then max n1 1 else n1
    let p ← setPercentages a
    if a.contig = true ∧ a.nContig = 1 then
      throw (.exc "Not allowing two adjacent plies")
    let angles := npUnique a.setOfAngles
    if angles.any (fun x => decide (x > 90)) || angles.any (fun x => decide (x ≤ -90)) then
      throw (.exc "The allowed fibre angles")
    if (!angles.contains 0 || !angles.contains 45 || !angles.contains 90
        || !angles.contains (-45)) && a.rule10 then
      throw (.exc "The 10% rule is only applicable")
    let dict := mkIndAngles angles
    if angles.any (fun x => decide (x ≠ 90) && !angles.contains (-x)) then
      throw (.exc "Missing input fibre orientation")
    let abal := mkAnglesBal angles dict
    if abal = [] then throw .indexError
    if a.setOfAngles.dedup.length ≠ a.setOfAngles.length then
      throw (.exc "Repeated angles")
    if a.minDrop < 1 then throw (.exc "min_drop")
    return {
      sym := a.sym, bal := a.bal, ipo := a.bal, oopo := a.oopo
      damTol := a.damTol
      damTolAttr := .rule (if a.damTol then a.damTolRule else 0)
      covering := covering, nCovering := nCov
      rule10 := a.rule10, rule10Abdalla := a.rule10Abdalla
      pAbdalla := p.pAbdalla, p0 := p.p0, p45 := p.p45, p90 := p.p90, p135 := p.p135
      p45_135 := p.p45_135, pTot := p.pTot
      diso := a.diso, deltaAngle := if a.diso then a.deltaAngle else 180
      contig := a.contig
      nContig := if a.contig then a.nContig else 1
      nContigC := if a.contig then a.nContig else 10 ^ 10
      angles := angles
      index0 := angles.idxOf? 0, index45 := angles.idxOf? 45
      index90 := angles.idxOf? 90, index135 := angles.idxOf? (-45)
      indAngles := dict
      posAngles := npUnique (angles.map (fun x => (x.natAbs : Int)))
      anglesBal := abal
      nAngles := a.setOfAngles.dedup.length
      pdlSpacing := a.pdlSpacing, minDrop := a.minDrop }

end Bella
