import Verif.Model.Basic
import Mathlib.Analysis.Real.Pi.Bounds
/-
Model of src/buckling/buckling.py, over the real numbers (floating-point rounding is not modelled).
-/
namespace Bella

/-- The attributes of a `Material` object used in buckling.py. -/
structure Mat where
  U1 : ℝ
  U2 : ℝ
  U3 : ℝ
  U4 : ℝ
  U5 : ℝ
  plyT : ℝ

/-- The out-of-plane stiffnesses of a laminate. -/
structure Stiff where
  D11 : ℝ
  D12 : ℝ
  D22 : ℝ
  D66 : ℝ

/-- buckling.py 28-30 `buckling_margin` -/
noncomputable def bucklingMargin (f : ℝ) : ℝ := 100 * (f - 1)

/-- buckling.py 95-117 `buckling_factor_m_n`.  Division by zero (no load) is not modelled
(Lean's `x / 0 = 0`); the theorems assume a load. -/
noncomputable def bucklingMN (d : Stiff) (m n : Nat) (nx ny lx ly : ℝ) : ℝ :=
  let alpha := ((m : ℝ) / lx) ^ 2
  let beta := ((n : ℝ) / ly) ^ 2
  Real.pi ^ 2 * (d.D11 * alpha ^ 2 + 2 * (d.D12 + 2 * d.D66) * alpha * beta + d.D22 * beta ^ 2) /
    (alpha * |nx| + beta * |ny|)

/-- buckling.py 72-82: the stiffnesses from the lamination parameters, in the 12-component format
(entries 8 and 9) or in the other format (entries 0 and 1); out of range raises. -/
noncomputable def bucklingStiff (lampam : List ℝ) (mat : Mat) (n : ℝ) : Py Stiff :=
  let a := (1 / 12) * (n * mat.plyT) ^ 3
  if lampam.length = 12 then
    let x := lampam.getD 8 0
    let y := lampam.getD 9 0
    .ok ⟨a * (mat.U1 + mat.U2 * x + mat.U3 * y), a * (-mat.U3 * y + mat.U4),
      a * (mat.U1 - mat.U2 * x + mat.U3 * y), a * (-mat.U3 * y + mat.U5)⟩
  else if lampam.length < 2 then .error .indexError
  else
    let x := lampam.getD 0 0
    let y := lampam.getD 1 0
    .ok ⟨a * (mat.U1 + mat.U2 * x + mat.U3 * y), a * (-mat.U3 * y + mat.U4),
      a * (mat.U1 - mat.U2 * x + mat.U3 * y), a * (-mat.U3 * x + mat.U5)⟩

/-- buckling.py 83-91: the table of the factors of all modes, row by row. -/
noncomputable def bucklingTable (d : Stiff) (nModes : Nat) (nx ny lx ly : ℝ) : List ℝ :=
  (List.range nModes).flatMap (fun m => (List.range nModes).map (fun n =>
    bucklingMN d (m + 1) (n + 1) nx ny lx ly))

/-- `np.min`; raises on an empty array. -/
noncomputable def npMinR : List ℝ → Py ℝ
  | [] => .error .valueError
  | x :: xs => .ok (xs.foldl min x)

/-- buckling.py 55-92 `buckling_factor` -/
noncomputable def bucklingFactor (lampam : List ℝ) (mat : Mat) (n nx ny lx ly : ℝ)
    (nModes : Nat) : Py ℝ := do
  let d ← bucklingStiff lampam mat n
  npMinR (bucklingTable d nModes nx ny lx ly)

end Bella
