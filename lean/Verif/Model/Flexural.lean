import Verif.Model.Contiguity
import Verif.Model.Constraints
import Verif.Model.Search
/-
Models of src/RELAY/repair_flexural_2.py and repair_flexural_3.py.

Arithmetic is exact (rational numbers instead of floating point numbers).  The counter
`n_obj_func_D_calls` is not modelled.
-/
namespace Bella

/-- The data of the out-of-plane objective function: `cs a k` is the `k`-th entry (0 to 3) of
`constraints.cos_sin[constraints.ind_angles_dict[a]]` (a total function here: a ply angle outside the
set of angles raises `KeyError` in the code), `coeffs` is `out_of_plane_coeffs`, `target k` is
`lampam_target[8 + k]`. -/
structure FlexData where
  cs : Int → Nat → ℚ
  coeffs : Nat → ℚ
  target : Nat → ℚ

/-- `1 - (2 / ss.size) * index_ply`, repair_flexural_2.py 73-74, 91-92; repair_flexural_3.py 71-72, 89-90. -/
def normPos (n i : Nat) : ℚ := 1 - (2 / (n : ℚ)) * (i : ℚ)

/-- `norm_pos_top**3 - norm_pos_bot**3`, repair_flexural_2.py 93; repair_flexural_3.py 91. -/
def secMomArea (n i : Nat) : ℚ := normPos n i ^ 3 - normPos n (i + 1) ^ 3

/-- `sec_mom_areas`, repair_flexural_2.py 69-96; repair_flexural_3.py 67-94. -/
def flexAreas (n : Nat) (sym : Bool) : List ℚ :=
  if sym then (List.range (n / 2)).map (fun (i : Nat) => secMomArea n i)
  else (List.range n).map (fun (i : Nat) => secMomArea n i / 2)

/-- `cos_sin` at the start, one row of four numbers per ply, repair_flexural_2.py 85-90;
repair_flexural_3.py 83-88. -/
def flexRows (D : FlexData) (ss : Stack) (sym : Bool) : List (Nat → ℚ) :=
  (if sym then ss.take (ss.length / 2) else ss).map D.cs

/-- `delta_lampam_mid`, repair_flexural_2.py 69-83; repair_flexural_3.py 67-81. -/
def flexMid (D : FlexData) (ss : Stack) (sym : Bool) (k : Nat) : ℚ :=
  if sym = true ∧ ss.length % 2 = 1 then
    secMomArea ss.length (ss.length / 2) / 2 * D.cs (nth ss (ss.length / 2)) k
  else 0

/-- `np.matmul(sec_mom_areas, cos_sin) + delta_lampam_mid`, e.g. repair_flexural_2.py 98. -/
def flexLampam (areas : List ℚ) (rows : List (Nat → ℚ)) (mid : Nat → ℚ) (k : Nat) : ℚ :=
  (List.zipWith (fun (a : ℚ) (r : Nat → ℚ) => a * r k) areas rows).sum + mid k

/-- `sum(out_of_plane_coeffs*((lampamD - lampam_target[8:12])**2))`, e.g. repair_flexural_2.py 99. -/
def flexObj (D : FlexData) (lam : Nat → ℚ) : ℚ :=
  ((List.range 4).map (fun (k : Nat) => D.coeffs k * (lam k - D.target k) ^ 2)).sum

/-- Alternating entries of two arrays: `x[::2] = a; x[1::2] = b`. -/
def flexMix {α : Type} : List α → List α → List α
  | [], b => b
  | x :: a, [] => x :: a
  | x :: a, y :: b => x :: y :: flexMix a b

/-- `ind_2`, repair_flexural_2.py 40-66; repair_flexural_3.py 38-64. -/
def flexInd (n : Nat) (c : Cons) (attr : DamTolAttr) : List Nat :=
  if c.sym then
    (List.range (n / 2)).drop (if c.damTol then (if attr.twoPlies then 2 else 1) else 0)
  else
    let indices := List.range n
    let beginning := slice indices 0 (n / 2)
    let ending := (slice indices (n / 2) n).reverse
    let ind2 := flexMix ending beginning
    if c.damTol then (if attr.twoPlies then ind2.drop 4 else ind2.drop 2) else ind2

/-- `x[a:b + 1] = np.hstack((x[a + 1:b + 1], x[a]))` for `a ≤ b < x.size`: the entry `a` is moved to
position `b` (repair_flexural_2.py 122-125, 165-168, 320-325). -/
def moveDown {α : Type} (l : List α) (a b : Nat) : List α :=
  l.take a ++ slice l (a + 1) (b + 1) ++ slice l a (a + 1) ++ l.drop (b + 1)

/-- `x[a:b + 1] = np.hstack((x[b], x[a:b]))` for `a ≤ b < x.size`: the entry `b` is moved to
position `a` (repair_flexural_2.py 184-186, 246-248, 291-293, 327-331). -/
def moveUp {α : Type} (l : List α) (a b : Nat) : List α :=
  l.take a ++ slice l b (b + 1) ++ slice l a b ++ l.drop (b + 1)

/-- The tests `if constraints.diso: …` of the two ends `lo < hi` of the part of `m` that has changed,
`below` is the ply after the end `hi`, if there is one (repair_flexural_2.py 128-144: lo = ind_ply_2,
hi = ind_ply_1; 251-267: lo = ind_ply_1, hi = ind_ply_2; symmetric case 189-210). -/
def flexDiso (c : Cons) (m : Stack) (lo hi : Nat) (below : Option Int) : Bool :=
  ! (decide (0 < lo) && ! isDiso (nth m lo) (nth m (lo - 1)) c.deltaAngle) &&
  isDiso (nth m lo) (nth m (lo + 1)) c.deltaAngle &&
  isDiso (nth m hi) (nth m (hi - 1)) c.deltaAngle &&
  (match below with
   | none => true
   | some x => isDiso (nth m hi) x c.deltaAngle)

/-- `ss_mod[mini:maxi + 1]` with `mini = max(0, i - n_contig)`, `maxi = i + n_contig`. -/
def flexWindow (c : Cons) (m : Stack) (i : Nat) : Stack := slice m (i - c.nContig) (i + c.nContig + 1)

/-- repair_flexural_2.py 127-157 and 250-284: the tests of the modified laminate, asymmetric case
(`i1` is `ind_ply_1`, `i2` is `ind_ply_2`, the order in which the two windows are tested). -/
def flexTestAsym (c : Cons) (m : Stack) (lo hi i1 i2 : Nat) : Py Bool :=
  if c.diso = true ∧ flexDiso c m lo hi (if hi < m.length - 1 then some (nth m (hi + 1)) else none) = false then
    .ok false
  else if c.contig then do
    let t1 ← isContig (flexWindow c m i1) c.nContig
    if t1 then isContig (flexWindow c m i2) c.nContig else pure false
  else .ok true

/-- repair_flexural_2.py 217-221, 235-241: the half laminate completed by the middle ply of `ss` and by
symmetry. -/
def flexMirror (ss m : Stack) : Stack :=
  if ss.length % 2 = 1 then m ++ [nth ss (ss.length / 2)] ++ m.reverse else m ++ m.reverse

/-- repair_flexural_2.py 188-244: the tests of the modified half laminate `m`, symmetric case
(`i1 < i2`). -/
def flexTestSym (c : Cons) (ss m : Stack) (i1 i2 : Nat) : Py Bool :=
  let half := ss.length / 2
  if c.diso = true ∧ flexDiso c m i1 i2
      (if ss.length % 2 = 1 ∧ i2 = half - 1 then some (nth ss (i2 + 1))
       else if i2 < half - 1 then some (nth m (i2 + 1)) else none) = false then .ok false
  else if c.contig then
    let mini := i1 - c.nContig
    let maxi := i1 + c.nContig
    if maxi ≥ half - 1 then
      isContig (slice (flexMirror ss m) mini (ss.length - mini - 1 + 1)) c.nContig
    else do
      let t1 ← isContig (slice m mini (maxi + 1)) c.nContig
      if t1 = false then pure false
      else
        let mini := i2 - c.nContig
        let maxi := i2 + c.nContig
        if maxi ≥ half - 1 then
          isContig (slice (flexMirror ss m) mini (ss.length - mini - 1 + 1)) c.nContig
        else isContig (slice m mini (maxi + 1)) c.nContig
  else .ok true

/-- The tests of one candidate; repair_flexural_3.py carries out none (`rules = false`). -/
def flexTest (rules : Bool) (c : Cons) (ss : Stack) (even : Bool) (i1 i2 : Nat) : Py Bool :=
  if rules = false then .ok true
  else if c.sym = false ∧ even = true then flexTestAsym c (moveDown ss i2 i1) i2 i1 i1 i2
  else if c.sym then flexTestSym c ss (moveUp (slice ss 0 (ss.length / 2)) i1 i2) i1 i2
  else flexTestAsym c (moveUp ss i1 i2) i1 i2 i1 i2

/-- One candidate, repair_flexural_2.py 119-306, repair_flexural_3.py 117-160: the value stored in `objD`
(`1e10` if the candidate is rejected) and the array `cos_sin`, changed and changed back. -/
def flexTry (rules : Bool) (c : Cons) (D : FlexData) (areas : List ℚ) (mid : Nat → ℚ) (ss : Stack)
    (even : Bool) (i1 i2 : Nat) (rows : List (Nat → ℚ)) : Py (ℚ × List (Nat → ℚ)) := do
  let ok ← flexTest rules c ss even i1 i2
  if ok = false then pure (10 ^ 10, rows)
  else if c.sym = false ∧ even = true then
    let rows' := moveDown rows i2 i1
    pure (flexObj D (flexLampam areas rows' mid), moveUp rows' i2 i1)
  else
    let rows' := moveUp rows i1 i2
    pure (flexObj D (flexLampam areas rows' mid), moveDown rows' i1 i2)

/-- The loop over the candidates `ind_ply_2`. -/
def flexTries (rules : Bool) (c : Cons) (D : FlexData) (areas : List ℚ) (mid : Nat → ℚ) (ss : Stack)
    (even : Bool) (i1 : Nat) : List Nat → List (Nat → ℚ) → Py (List ℚ × List (Nat → ℚ))
  | [], rows => .ok ([], rows)
  | i2 :: rest, rows => do
    let r ← flexTry rules c D areas mid ss even i1 i2 rows
    let t ← flexTries rules c D areas mid ss even i1 rest r.2
    pure (r.1 :: t.1, t.2)

/-- The variables changed by the main loop. -/
structure FlexState where
  ss : Stack
  rows : List (Nat → ℚ)
  best : ℚ

/-- One pass of the main loop, repair_flexural_2.py 111-340 (`rules = true`), repair_flexural_3.py 107-190
(`rules = false`).  `ind_step` always equals `index`. -/
def flexStep (rules : Bool) (c : Cons) (D : FlexData) (nD2 : Nat) (ind2 : List Nat) (areas : List ℚ)
    (mid : Nat → ℚ) (index : Nat) (s : FlexState) : Py FlexState := do
  let i1 := ind2.getD index 0
  let even := decide (index % 2 = 0)
  let cands := slice ind2 (index + 1) (if rules then index + nD2 else index + 2 + nD2)
  let size := if rules then nD2 - 1 else (ind2.drop (index + 1)).length
  let r ← flexTries rules c D areas mid s.ss even i1 cands s.rows
  let objD := r.1 ++ List.replicate (size - r.1.length) (10 ^ 10)
  if objD = [] then throw .valueError
  else
    let m := objD.getD (argMin objD) 0
    if m + 1 / 10 ^ 20 < s.best then
      match (ind2.drop (index + 1))[argMin objD]? with
      | none => throw .indexError
      | some i2 =>
        if c.sym = false ∧ even = true then
          pure { ss := moveDown s.ss i2 i1, rows := moveDown r.2 i2 i1, best := m }
        else
          pure { ss := moveUp s.ss i1 i2, rows := moveUp r.2 i1 i2, best := m }
    else pure { s with rows := r.2 }

/-- The main loop from `index` on, `k` passes. -/
def flexLoop (rules : Bool) (c : Cons) (D : FlexData) (nD2 : Nat) (ind2 : List Nat) (areas : List ℚ)
    (mid : Nat → ℚ) : Nat → Nat → FlexState → Py FlexState
  | 0, _, s => .ok s
  | k + 1, index, s => do
    let s' ← flexStep rules c D nD2 ind2 areas mid index s
    flexLoop rules c D nD2 ind2 areas mid k (index + 1) s'

/-- The two functions have the same structure. -/
def flexMain (rules : Bool) (c : Cons) (attr : DamTolAttr) (D : FlexData) (nD2 : Nat) (ss : Stack) :
    Py Stack := do
  let ind2 := flexInd ss.length c attr
  let areas := flexAreas ss.length c.sym
  let mid := flexMid D ss c.sym
  let rows := flexRows D ss c.sym
  let s ← flexLoop rules c D nD2 ind2 areas mid (ind2.length - 1) 0
    { ss := ss, rows := rows, best := flexObj D (flexLampam areas rows mid) }
  if c.sym then
    pure (s.ss.take (ss.length / 2 + ss.length % 2) ++ (s.ss.take (ss.length / 2)).reverse)
  else pure s.ss

/-- repair_flexural_2.py 19-344 `repair_flexural_2`. -/
def repairFlexural2 (c : Cons) (attr : DamTolAttr) (D : FlexData) (nD2 : Nat) (ss : Stack) : Py Stack :=
  flexMain true c attr D nD2 ss

/-- repair_flexural_3.py 17-199 `repair_flexural_3`. -/
def repairFlexural3 (c : Cons) (attr : DamTolAttr) (D : FlexData) (nD2 : Nat) (ss : Stack) : Py Stack :=
  flexMain false c attr D nD2 ss

end Bella
