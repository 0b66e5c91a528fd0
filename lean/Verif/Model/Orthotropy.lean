import Verif.Model.Constraints
import Mathlib.Algebra.Order.Field.Basic
import Mathlib.Algebra.Order.Group.Abs
/-
src/guidelines/ipo_oopo.py: orthotropy parameters and penalties, and src/BELLA/materials.py: lamina properties.
The numbers are elements of an ordered field `K` (exact arithmetic).
-/
namespace Bella

variable {K : Type} [Field K] [LinearOrder K]

/-- The lamina properties `Material` (materials.py 79-107) used by the stiffness formulas. -/
structure Lamina (K : Type) where
  E11 : K
  E22 : K
  G12 : K
  nu12 : K
  nu21 : K
  densityArea : K
  densityVolume : K
  plyT : K
  Q11 : K
  Q12 : K
  Q22 : K
  Q66 : K
  U1 : K
  U2 : K
  U3 : K
  U4 : K
  U5 : K

/-- materials.py 11-107 `Material.__init__` for numbers (the type checks cannot fail).  Lines 29 and 37 test `E11` again instead of
`E22` and `G12`.  A division by zero (line 95) raises. -/
def mkMaterial (E11 E22 nu12 G12 densityVolume densityArea plyT : K) : Py (Lamina K) :=
  if E11 ≤ 0 then .error (.exc "elastic modulus (E11)")
  else if E11 ≤ 0 then .error (.exc "elastic modulus (E22)")
  else if E11 ≤ 0 then .error (.exc "shear modulus")
  else if densityVolume < 0 then .error (.exc "density (density_volume)")
  else if densityArea < 0 then .error (.exc "density (density_area)")
  else if plyT ≤ 0 then .error (.exc "density (ply_t)")
  else
    let nu21 := nu12 * E22 / E11
    let dens : K × K :=
      if densityArea = 0 ∧ densityVolume = 0 then (3005 / 10, densityArea / plyT)
      else if densityArea = 0 then (densityVolume * plyT, densityVolume)
      else if densityVolume = 0 then (densityArea, densityArea / plyT)
      else (densityArea, densityVolume)
    let bla := 1 - nu12 * nu21
    if bla = 0 then .error .zeroDivision
    else
      let Q11 := E11 / bla
      let Q12 := nu12 * E22 / bla
      let Q22 := E22 / bla
      let Q66 := G12
      .ok {
        E11 := E11, E22 := E22, G12 := G12, nu12 := nu12, nu21 := nu21
        densityArea := dens.1, densityVolume := dens.2, plyT := plyT
        Q11 := Q11, Q12 := Q12, Q22 := Q22, Q66 := Q66
        U1 := (1 / 8) * (3 * Q11 + 3 * Q22 + 2 * Q12 + 4 * Q66)
        U2 := (1 / 2) * (Q11 - Q22)
        U3 := (1 / 8) * (Q11 + Q22 - 2 * Q12 - 4 * Q66)
        U4 := (1 / 8) * (Q11 + Q22 + 6 * Q12 - 4 * Q66)
        U5 := (1 / 8) * (Q11 + Q22 - 2 * Q12 + 4 * Q66) }

/-- A symmetric 3×3 matrix `[[a11, a12, a16], [a12, a22, a26], [a16, a26, a66]]`. -/
structure Sym3 (K : Type) where
  a11 : K
  a12 : K
  a22 : K
  a66 : K
  a16 : K
  a26 : K

/-- ipo_oopo.py 51-56, 75-80 and 82-87: the stiffnesses of four consecutive lamination parameters, `u1`, `u4`, `u5` being zero for the
coupling ones, scaled by `k` (1, 1/4 and 1/12). -/
def stiffness (k u1 u2 u3 u4 u5 l0 l1 l2 l3 : K) : Sym3 K where
  a11 := k * (u1 + u2 * l0 + u3 * l1)
  a12 := k * (- u3 * l1 + u4)
  a22 := k * (u1 - u2 * l0 + u3 * l1)
  a66 := k * (- u3 * l1 + u5)
  a16 := k * (1 / 2 * u2 * l2 + u3 * l3)
  a26 := k * (1 / 2 * u2 * l2 - u3 * l3)

/-- Determinant of a symmetric matrix. -/
def Sym3.det (A : Sym3 K) : K :=
  A.a11 * (A.a22 * A.a66 - A.a26 * A.a26) - A.a12 * (A.a12 * A.a66 - A.a26 * A.a16) + A.a16 * (A.a12 * A.a26 - A.a22 * A.a16)

/-- `np.linalg.inv` of a symmetric 3×3 matrix (cofactors); `LinAlgError` for a singular one. -/
def Sym3.inv (A : Sym3 K) : Py (Sym3 K) :=
  if A.det = 0 then .error (.exc "Singular matrix")
  else .ok {
    a11 := (A.a22 * A.a66 - A.a26 * A.a26) / A.det
    a12 := - (A.a12 * A.a66 - A.a26 * A.a16) / A.det
    a22 := (A.a11 * A.a66 - A.a16 * A.a16) / A.det
    a66 := (A.a11 * A.a22 - A.a12 * A.a12) / A.det
    a16 := (A.a12 * A.a26 - A.a22 * A.a16) / A.det
    a26 := - (A.a11 * A.a26 - A.a12 * A.a16) / A.det }

/-- `B @ C @ B` for symmetric matrices. -/
def Sym3.sandwich (B C : Sym3 K) : Sym3 K :=
  -- rows of B @ C
  let r11 := B.a11 * C.a11 + B.a12 * C.a12 + B.a16 * C.a16
  let r12 := B.a11 * C.a12 + B.a12 * C.a22 + B.a16 * C.a26
  let r13 := B.a11 * C.a16 + B.a12 * C.a26 + B.a16 * C.a66
  let r21 := B.a12 * C.a11 + B.a22 * C.a12 + B.a26 * C.a16
  let r22 := B.a12 * C.a12 + B.a22 * C.a22 + B.a26 * C.a26
  let r23 := B.a12 * C.a16 + B.a22 * C.a26 + B.a26 * C.a66
  let r31 := B.a16 * C.a11 + B.a26 * C.a12 + B.a66 * C.a16
  let r32 := B.a16 * C.a12 + B.a26 * C.a22 + B.a66 * C.a26
  let r33 := B.a16 * C.a16 + B.a26 * C.a26 + B.a66 * C.a66
  { a11 := r11 * B.a11 + r12 * B.a12 + r13 * B.a16
    a12 := r11 * B.a12 + r12 * B.a22 + r13 * B.a26
    a22 := r21 * B.a12 + r22 * B.a22 + r23 * B.a26
    a66 := r31 * B.a16 + r32 * B.a26 + r33 * B.a66
    a16 := r11 * B.a16 + r12 * B.a26 + r13 * B.a66
    a26 := r21 * B.a16 + r22 * B.a26 + r23 * B.a66 }

/-- Difference of two matrices. -/
def Sym3.sub (A B : Sym3 K) : Sym3 K :=
  ⟨A.a11 - B.a11, A.a12 - B.a12, A.a22 - B.a22, A.a66 - B.a66, A.a16 - B.a16, A.a26 - B.a26⟩

/-- A quotient of NumPy numbers: not a finite number if the denominator is zero (`none`). -/
def npDiv (x y : K) : Option K := if y = 0 then none else some |x / y|

/-- Extensional stiffnesses (ipo_oopo.py 51-56). -/
def stiffA (m : Lamina K) (l : Nat → K) : Sym3 K := stiffness 1 m.U1 m.U2 m.U3 m.U4 m.U5 (l 0) (l 1) (l 2) (l 3)

/-- ipo_oopo.py 113-135 `ipo_param_1_6` (absolute values; `none`: not a finite number). -/
def ipoParam16 (m : Lamina K) (l : Nat → K) : List (Option K) :=
  let A := stiffA m l
  [npDiv A.a16 A.a11, npDiv A.a16 A.a12, npDiv A.a16 A.a66, npDiv A.a26 A.a12, npDiv A.a26 A.a22, npDiv A.a26 A.a66]

/-- ipo_oopo.py 138-193 `ipo_param_7_12`. -/
def ipoParam712 (m : Lamina K) (l : Nat → K) (sym : Bool) : Py (List (Option K)) :=
  let A := stiffA m l
  if sym then
    .ok [npDiv (A.a12 * A.a26 - A.a22 * A.a16) (A.a22 * A.a66 - A.a26 * A.a26),
      npDiv (A.a12 * A.a26 - A.a22 * A.a16) (A.a16 * A.a26 - A.a12 * A.a66),
      npDiv (A.a12 * A.a26 - A.a22 * A.a16) (A.a11 * A.a22 - A.a12 * A.a12),
      npDiv (A.a12 * A.a16 - A.a11 * A.a26) (A.a16 * A.a26 - A.a12 * A.a66),
      npDiv (A.a12 * A.a16 - A.a11 * A.a26) (A.a11 * A.a66 - A.a16 * A.a16),
      npDiv (A.a12 * A.a16 - A.a11 * A.a26) (A.a11 * A.a22 - A.a12 * A.a12)]
  else do
    let B := stiffness (1 / 4) 0 m.U2 m.U3 0 0 (l 4) (l 5) (l 6) (l 7)
    let D := stiffness (1 / 12) m.U1 m.U2 m.U3 m.U4 m.U5 (l 8) (l 9) (l 10) (l 11)
    let Di ← D.inv
    let a ← (A.sub (B.sandwich Di)).inv
    .ok [npDiv a.a16 a.a11, npDiv a.a16 a.a12, npDiv a.a16 a.a66, npDiv a.a26 a.a12, npDiv a.a26 a.a22, npDiv a.a26 a.a66]

/-- ipo_oopo.py 48-110 `ipo_param_1_12`. -/
def ipoParam112 (m : Lamina K) (l : Nat → K) (sym : Bool) : Py (List (Option K)) := do
  let p ← ipoParam712 m l sym
  .ok (ipoParam16 m l ++ p)

/-- ipo_oopo.py 196-204 `calc_penalty_ipo_param` (the threshold is not used; `max` of an empty array raises). -/
def penaltyIpoParam (param : List K) (_threshold : K) : Py K :=
  match param.map (fun x : K => max 0 |x|) with
  | [] => .error .valueError
  | x :: xs => .ok (xs.foldl max x / (param.length : K))

/-- ipo_oopo.py 207-220 `calc_penalty_ipo`, one laminate. -/
def penaltyIpo (l : Nat → K) (cummulAreas : K := 1) : K := cummulAreas * ((|l 2| + |l 3|) / 2)

/-- ipo_oopo.py 266-292 `calc_penalty_oopo_ss`, one laminate. -/
def penaltyOopo (c : Cons) (l : Nat → K) (cummul : K := 1) : K := cummul * (if c.oopo then (|l 10| + |l 11|) / 2 else 0)

/-- ipo_oopo.py 223-262 `calc_penalty_ipo_oopo_mp`: `calculate_penalty` is only assigned when no parameters are given. -/
def penaltyIpoOopoMp (c : Cons) (switch : Bool) (parametersGiven : Bool) (ls : List (Nat → K)) (ca cd : K) :
    Py (List K × List K) :=
  if parametersGiven then .error .unbound
  else .ok (ls.map (fun l : Nat → K => ca * (if c.ipo && switch then (|l 2| + |l 3|) / 2 else 0)),
    ls.map (fun l : Nat → K => cd * (if c.oopo then (|l 10| + |l 11|) / 2 else 0)))

end Bella
