import Verif.Model.Blending
/-
Models of src/BELLA/ply_order.py, src/BELLA/moments_of_areas.py, src/BELLA/lampam_matrix.py and of
src/LAYLA_V02/ply_order.py
-/
namespace Bella

/-- `n // 2 + n % 2` (used all over the code). -/
def halfUp (n : Nat) : Nat := n / 2 + n % 2

/-- BELLA/ply_order.py 28-40 `calc_ply_order`, one panel of `n` plies; the same code is in
LAYLA_V02/ply_order.py 11-36.  The slice assignments `[0::2]`, `[1::2]` fill the even and the odd
positions. -/
def calcPlyOrder (sym : Bool) (n : Nat) : List Nat :=
  if sym then List.range (halfUp n)
  else
    let before := List.range n
    let evens := before.take (halfUp n)
    let odds := (before.drop (halfUp n)).reverse
    (List.range n).map (fun i => if i % 2 = 0 then evens.getD (i / 2) 0 else odds.getD (i / 2) 0)

/-- LAYLA_V02/ply_order.py 38-60 `calc_levels`, the nested loops; `ply_order[ind_all_plies]` out of
range raises. `k` is `ind_all_plies`. -/
def calcLevels (order : List Nat) : List Nat → Nat → Py (List (List Nat))
  | [], _ => .ok []
  | g :: gs, k => do
    let lv ← (List.range g).mapM (fun i => pyGet order (k + i))
    let rest ← calcLevels order gs (k + g)
    return lv :: rest

/-- moments_of_areas.py 53 and 83: normalised position of the bottom of ply `i`, of thickness `2/n`. -/
def posBot (n i : Nat) : ℚ := 2 / (n : ℚ) * (i : ℚ) - 1

/-- moments_of_areas.py 54 and 85: normalised position of the top of ply `i`. -/
def posTop (n i : Nat) : ℚ := 2 / (n : ℚ) * ((i : ℚ) + 1) - 1

/-- moments_of_areas.py 54-57: for a symmetric laminate with a middle ply only its lower half counts. -/
def posTopSym (n i : Nat) : ℚ :=
  if n % 2 ≠ 0 ∧ i + 1 = halfUp n then 0 else posTop n i

/-- Area, first and second moment of area of a ply. -/
structure Mom where
  a : ℚ
  b : ℚ
  d : ℚ
  deriving DecidableEq, Repr

/-- moments_of_areas.py 46-64 and 73-91: signed moments of area (`mom_areas`) of one panel, in the
order in which plies are optimised. -/
def momAreas (sym : Bool) (n : Nat) (order : List Nat) : List Mom :=
  if sym then (List.range (halfUp n)).map (fun i =>
    ⟨posTopSym n i - posBot n i, 0, posTopSym n i ^ 3 - posBot n i ^ 3⟩)
  else order.map (fun i =>
    ⟨(posTop n i - posBot n i) / 2, (posTop n i ^ 2 - posBot n i ^ 2) / 2,
      (posTop n i ^ 3 - posBot n i ^ 3) / 2⟩)

/-- moments_of_areas.py 66-68 and 94-111: positive moments of area (`mom_areas_plus`) of one panel. -/
def momAreasPlus (sym : Bool) (n : Nat) (order : List Nat) : List Mom :=
  if sym then (List.range (halfUp n)).map (fun i =>
    ⟨posTopSym n i - posBot n i, |posTopSym n i ^ 2 - posBot n i ^ 2|,
      posTopSym n i ^ 3 - posBot n i ^ 3⟩)
  else order.map (fun i =>
    if posTop n i * posBot n i ≥ 0 then
      ⟨|posTop n i - posBot n i| / 2, |posTop n i ^ 2 - posBot n i ^ 2| / 2,
        |posTop n i ^ 3 - posBot n i ^ 3| / 2⟩
    else
      ⟨(|posTop n i| + |posBot n i|) / 2, (|posTop n i ^ 2| + |posBot n i ^ 2|) / 2,
        (|posTop n i ^ 3| + |posBot n i ^ 3|) / 2⟩)

/-- moments_of_areas.py 155-165 `cummul[ind_panel, index_ply:] += x`. -/
def addFrom (l : List ℚ) (j : Nat) (x : ℚ) : List ℚ := l.take j ++ (l.drop j).map (· + x)

/-- moments_of_areas.py 148-165 (`calc_mom_of_areas2`), one panel and one of the three moments `f`:
the loop over the columns of the layout row `pdl`; `k` is the number of plies met so far
(`counter_plies + 1`), `j` is `index_ply`. -/
def cummulLoop (moms : List ℚ) : Stack → Nat → Nat → List ℚ → Py (List ℚ)
  | [], _, _, acc => .ok acc
  | d :: row, j, k, acc =>
    if d ≠ -1 then do
      let x ← pyGet moms k
      cummulLoop moms row (j + 1) (k + 1) (addFrom acc j x)
    else cummulLoop moms row (j + 1) k acc

/-- moments_of_areas.py 116-167 `calc_mom_of_areas2`, one row (one panel, one moment). -/
def cummulRow (moms : List ℚ) (row : Stack) : Py (List ℚ) :=
  cummulLoop moms row 0 0 (List.replicate row.length 0)

/-- lampam_matrix.py 33-66 `calc_delta_lampams`, one panel: the in-plane, coupling and out-of-plane
partial lamination parameters of ply number `i` for an angle whose `cos_sin` entry is `c`.  The
division by two of lines 50-51 applies to the last ply if its index is `middle_ply_index`, that
panels.py 227-233 sets to `(n + 1)/2` for symmetric laminates with a middle ply. -/
def deltaLampam (sym : Bool) (n : Nat) (moms : List Mom) (i : Nat) (c : ℚ) : ℚ × ℚ × ℚ :=
  let m := moms.getD i ⟨0, 0, 0⟩
  let r : ℚ × ℚ × ℚ := if sym then (m.a * c, 0, m.d * c) else (m.a * c, m.b * c, m.d * c)
  let middlePlyIndex := (n + 1) / 2
  if sym ∧ n % 2 ≠ 0 ∧ i + 1 = halfUp n ∧ i = middlePlyIndex then
    (r.1 / 2, r.2.1 / 2, r.2.2 / 2)
  else r

end Bella
