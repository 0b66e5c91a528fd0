import Verif.Model.Constraints
/-
Model of src/LAYLA_V02/constraints.py
-/
namespace Bella

/-- Arguments of the constructor, LAYLA_V02/constraints.py 14-32.  `combine_45_135` is never read.  The
`isinstance` checks on types are replaced by the Lean types (`n_contig` is a natural number here). -/
structure LaylaConsArgs where
  sym : Bool := false
  bal : Bool := false
  ipo : Bool := false
  oopo : Bool := false
  damTol : Bool := false
  rule10 : Bool := false
  percent0 : ℚ := 0
  percent45 : ℚ := 0
  percent90 : ℚ := 0
  percent135 : ℚ := 0
  percent45_135 : ℚ := 0
  diso : Bool := false
  contig : Bool := false
  nContig : Nat := 1
  deltaAngle : Int := 45
  damTolRule : Int := 2
  setOfAngles : List Int := [0, 45, 90, -45]

/-- LAYLA_V02/constraints.py 136-200 `set_percentages` (lines 179-183 only print a warning). -/
def laylaPercentages (a : LaylaConsArgs) : Py Percents :=
  let q45_135 := max a.percent45_135 (a.percent45 + a.percent135)
  if badPercent a.percent0 then .error (.exc "percent_0")
  else if badPercent a.percent45 then .error (.exc "percent_45")
  else if badPercent a.percent90 then .error (.exc "percent_90")
  else if badPercent a.percent135 then .error (.exc "percent_135")
  else if badPercent a.percent45_135 then .error (.exc "percent_45_135")
  else if a.rule10 then
    .ok ⟨0, a.percent0 / 100, a.percent45 / 100, a.percent90 / 100, a.percent135 / 100, q45_135 / 100,
      max (a.percent0 / 100 + a.percent45 / 100 + a.percent90 / 100 + a.percent135 / 100)
        (a.percent0 / 100 + q45_135 / 100 + a.percent90 / 100)⟩
  else .ok ⟨0, 0, 0, 0, 0, 0, 0⟩

/-- LAYLA_V02/constraints.py 34-134 and 202-297, the constructor, in the order of the checks.  The attributes
that BELLA's constraint objects have and LAYLA's have not (covering, Abdalla's rule, ply drop spacing) are filled
with inactive values; the table of cosines and sines (lines 290-297) is not modelled. -/
def mkLaylaConstraints (a : LaylaConsArgs) : Py Cons :=
  if a.damTol = true ∧ ¬ (a.damTolRule = 1 ∨ a.damTolRule = 2 ∨ a.damTolRule = 3) then
    .error (.exc "dam_tol_rule")
  else do
    let p ← laylaPercentages a
    if a.contig = true ∧ a.nContig = 1 then
      throw (.exc "Not allowing two adjacent plies")
    let angles := npUnique a.setOfAngles
    if angles.any (fun x => decide (x > 90)) || angles.any (fun x => decide (x ≤ -90)) then
      throw (.exc "The allowed fibre angles")
    if (!angles.contains 0 || !angles.contains 45 || !angles.contains 90
        || !angles.contains (-45)) && a.rule10 then
      throw (.exc "The 10% rule is only applicable")
    let dict := mkIndAngles angles
    if angles.any (fun x => decide (x ≠ 90) && !angles.contains (-x)) then
      throw (.exc "Missing input fibre orientation")
    let abal := mkAnglesBal angles dict
    if abal = [] then throw .indexError
    if a.setOfAngles.dedup.length ≠ a.setOfAngles.length then
      throw (.exc "Repeated angles")
    return {
      sym := a.sym, bal := a.bal, ipo := if a.bal then true else a.ipo, oopo := a.oopo
      damTol := a.damTol
      damTolAttr := .rule (if a.damTol then a.damTolRule else 0)
      covering := false, nCovering := 0
      rule10 := a.rule10, rule10Abdalla := false
      pAbdalla := p.pAbdalla, p0 := p.p0, p45 := p.p45, p90 := p.p90, p135 := p.p135
      p45_135 := p.p45_135, pTot := p.pTot
      diso := a.diso, deltaAngle := if a.diso then a.deltaAngle else 180
      contig := a.contig
      nContig := if a.contig then a.nContig else 1
      nContigC := if a.contig then a.nContig else 10 ^ 10
      angles := angles
      index0 := angles.idxOf? 0, index45 := angles.idxOf? 45
      index90 := angles.idxOf? 90, index135 := angles.idxOf? (-45)
      indAngles := dict
      posAngles := npUnique (angles.map (fun x => (x.natAbs : Int)))
      anglesBal := abal
      nAngles := a.setOfAngles.dedup.length
      pdlSpacing := false, minDrop := 0 }

/-- LAYLA_V02/constraints.py 121-134: `laminate_scheme` and `laminate_scheme_test`. -/
def laylaSchemes (c : Cons) : String × String :=
  if c.ipo then (if c.sym then ("S", "SB") else ("U", "B"))
  else (if c.sym then ("S", "S") else ("U", "U"))

end Bella
