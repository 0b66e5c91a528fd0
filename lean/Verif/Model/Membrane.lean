import Verif.Model.Repair10
import Verif.Model.Blending
import Verif.Model.Divers
import Verif.Model.Search
import Verif.Model.Flexural
/-
Models of src/RELAY/repair_membrane.py, repair_membrane_1_ipo.py, repair_membrane_1_no_ipo.py,
repair_membrane_1_ipo_Abdalla.py and repair_membrane_1_no_ipo_Abdalla.py, and of the functions of
src/RELAY/repair_10_bal.py which they use.

Arithmetic is exact (rational numbers instead of floating point numbers).  The distance of
`calc_distance_Abdalla` (square roots) is an arbitrary function parameter.
-/
namespace Bella

/-- Data of the in-plane objective function: `cosSin r k` is `constraints.cos_sin[r]` flattened to four
numbers (constraints.py 362-369), `coeffs` is `in_plane_coeffs`, `target k` is `lampam_target[k]`,
`pA` is the parameter `p_A`, a percentage. -/
structure MemData where
  cosSin : Nat → Nat → ℚ
  coeffs : Nat → ℚ
  target : Nat → ℚ
  pA : ℚ

/-- `constraints.ind_angles_dict[angle]`. -/
def rowOf (c : Cons) (a : Int) : Py Nat := dictGet c.indAngles a

/-- `sum(in_plane_coeffs * ((lampamA - lampam_target[0:4]) ** 2))`, e.g. repair_membrane_1_ipo.py 74. -/
def memObj (D : MemData) (lam : Nat → ℚ) : ℚ :=
  ((List.range 4).map (fun (k : Nat) => D.coeffs k * (lam k - D.target k) ^ 2)).sum

/-- Sum of the rows of `cos_sin` with the given numbers. -/
def sumRows (D : MemData) (rows : List Nat) (k : Nat) : ℚ := (rows.map (fun (r : Nat) => D.cosSin r k)).sum

/-- repair_10_bal.py 645-678 `calc_lampamA_ply_queue` (`n_plies` is always `ss.size`). -/
def calcLampamA (c : Cons) (D : MemData) (ss : Stack) (q : List Int) : Py (Nat → ℚ) :=
  if ss.length = 0 then .error .zeroDivision
  else if c.sym = false then do
    let rows ← (ss.filter (fun a => decide (a ≠ 666))).mapM (rowOf c)
    let rowsQ ← q.mapM (rowOf c)
    .ok (fun (k : Nat) => 1 / (ss.length : ℚ) * (sumRows D rows k + sumRows D rowsQ k))
  else do
    let rows ← ((ss.take (ss.length / 2)).filter (fun a => decide (a ≠ 666))).mapM (rowOf c)
    let rowsQ ← q.mapM (rowOf c)
    let mid ← if ss.length % 2 ≠ 0 then [nth ss (ss.length / 2)].mapM (rowOf c) else .ok []
    .ok (fun (k : Nat) =>
      2 / (ss.length : ℚ) * (sumRows D rows k + sumRows D rowsQ k + 1 / 2 * sumRows D mid k))

/-- `1 / n_plies` or `2 / n_plies`, repair_10_bal.py 624-627, 639-642. -/
def lamFactor (c : Cons) (n : Nat) : ℚ := if c.sym then 2 / (n : ℚ) else 1 / (n : ℚ)

/-- repair_10_bal.py 613-628 `calc_lampamA_options_1`: one row per couple of plies +-angle. -/
def lampamOptions1 (c : Cons) (D : MemData) (n : Nat) : Py (List (Nat → ℚ)) :=
  c.posAngles.mapM (fun (a : Int) => do
    let r ← rowOf c a
    let r' ← rowOf c (-a)
    .ok (fun (k : Nat) => lamFactor c n * (D.cosSin r k + D.cosSin r' k)))

/-- repair_10_bal.py 630-643 `calc_lampamA_options_3`: one row per fibre orientation. -/
def lampamOptions3 (c : Cons) (D : MemData) (n : Nat) : List (Nat → ℚ) :=
  (List.range c.nAngles).map (fun (r : Nat) (k : Nat) => lamFactor c n * D.cosSin r k)

/-- Entry `p` of the table of options. -/
def memOptRow (lo : List (Nat → ℚ)) (p : Nat) : Nat → ℚ := lo.getD p (fun _ => 0)

/-- The lamination parameters after the change number `t` of the flattened table: `t / m` replaced by
`t % m`, where `m` is the size of the table. -/
def lamAfter (lo : List (Nat → ℚ)) (lam : Nat → ℚ) (t : Nat) (k : Nat) : ℚ :=
  lam k - memOptRow lo (t / lo.length) k + memOptRow lo (t % lo.length) k

/-- repair_membrane_1_ipo.py 309-332 `calc_objA_options_1` and repair_membrane_1_no_ipo.py 178-199
`calc_objA_options_3`: the square table of the objectives, flattened row by row. -/
def objOptions (D : MemData) (lo : List (Nat → ℚ)) (lam : Nat → ℚ) : List ℚ :=
  (List.range (lo.length * lo.length)).map (fun (t : Nat) =>
    if t / lo.length = t % lo.length then 10 ^ 10 else memObj D (lamAfter lo lam t))

/-- The four fibre orientations of the 10% rule in the order of `excess_10`. -/
def slotAngle : Nat → Int
  | 0 => 0
  | 1 => 90
  | 2 => 45
  | _ => -45

/-- Entry of `mini_10`. -/
def Mini10.get (m : Mini10) : Nat → ℚ
  | 0 => m.m0
  | 1 => m.m90
  | 2 => (m.m45 : ℚ)
  | _ => (m.m135 : ℚ)

/-- repair_membrane_1_no_ipo.py 202-235 `calc_excess_10` (entries 0 to 3; entry 4 is never read). -/
def calcExcess10 (sym : Bool) (ss : Stack) (q : List Int) (mini : Mini10) : Py (Nat → ℚ) :=
  if sym then
    let half := ss.take (ss.length / 2)
    let mid := nth ss (ss.length / 2)
    if ss.length % 2 ≠ 0 ∧ mid ≠ 0 ∧ mid ≠ 90 then .error (.exc "This should not happen")
    else .ok (fun (s : Nat) => (half.count (slotAngle s) : ℚ) + (q.count (slotAngle s) : ℚ)
      + (if ss.length % 2 ≠ 0 ∧ s < 2 ∧ mid = slotAngle s then 1 / 2 else 0) - mini.get s)
  else .ok (fun (s : Nat) => (ss.count (slotAngle s) : ℚ) + (q.count (slotAngle s) : ℚ) - mini.get s)

/-- repair_10_bal.py 559-560 `ind_min` (`0 ≤ p_A ≤ 100` is checked in parameters.py 146-148). -/
def indMin (pA : ℚ) (n : Nat) : Nat := (⌊(1 - pA / 100) * ((n : ℚ) / 2)⌋).toNat

/-- repair_10_bal.py 562-597: number of plies at each end of the laminate which may not be changed. -/
def memProtected (c : Cons) (attr : DamTolAttr) (pA : ℚ) (n : Nat) : Nat :=
  if c.damTol then max (if attr.twoPlies then 2 else 1) (indMin pA n) else indMin pA n

/-- repair_10_bal.py 559-597: `indices_1` (its type `int16` is taken as unbounded). -/
def indices1 (c : Cons) (attr : DamTolAttr) (pA : ℚ) (n : Nat) : List Nat :=
  let m := memProtected c attr pA n
  let ind1 := ((List.range (n / 2)).drop m).reverse
  if c.sym then ind1 else flexMix ((List.range (n - m)).drop (n / 2)) ind1

/-- `indices_per_angle`: a list of ply indices per fibre orientation, 6666 for a ply of the queue. -/
abbrev Buckets := Nat → List Nat

/-- Replacing one list of `indices_per_angle`. -/
def Buckets.upd (b : Buckets) (r : Nat) (l : List Nat) : Buckets := fun (j : Nat) => if j = r then l else b j

/-- repair_10_bal.py 604-607. -/
def memFillPlies (c : Cons) (ss : Stack) : List Nat → Buckets → Py Buckets
  | [], b => .ok b
  | i :: is, b =>
    if nth ss i ≠ 666 then do
      let r ← rowOf c (nth ss i)
      memFillPlies c ss is (b.upd r (b r ++ [i]))
    else memFillPlies c ss is b

/-- repair_10_bal.py 609-610. -/
def fillQueue (c : Cons) : List Int → Buckets → Py Buckets
  | [], b => .ok b
  | a :: q, b => do
    let r ← rowOf c a
    fillQueue c q (b.upd r (6666 :: b r))

/-- repair_10_bal.py 543-611 `calc_ind_plies`. -/
def calcIndPlies (c : Cons) (attr : DamTolAttr) (pA : ℚ) (ss : Stack) (q : List Int) :
    Py (List Nat × Buckets) := do
  let ind := indices1 c attr pA ss.length
  let b ← memFillPlies c ss ind (fun _ => [])
  let b' ← fillQueue c q b
  .ok (ind, b')

/-- One entry of the lists `ss_list`, `ply_queue_list`, `lampamA_list`, `objA_list`. -/
structure MemCand where
  ss : Stack
  queue : List Int
  lam : Nat → ℚ
  obj : ℚ

/-- The variables of the refinement loops; `out` holds the four returned lists. -/
structure MemState where
  ss : Stack
  queue : List Int
  lam : Nat → ℚ
  obj : ℚ
  exc : Nat → ℚ
  idx : Buckets
  out : List MemCand

/-- `indices_per_angle[r].pop(0)`. -/
def popBucket (b : Buckets) (r : Nat) : Py (Nat × Buckets) :=
  match b r with
  | [] => .error .indexError
  | p :: t => .ok (p, b.upd r t)

/-- `ss[i] = a`, and its mirror image for symmetric laminates, e.g. repair_membrane_1_ipo.py 188-190. -/
def setPly (sym : Bool) (ss : Stack) (i : Nat) (a : Int) : Stack :=
  let s := ss.set i a
  if sym then s.set (s.length - i - 1) (nth s i) else s

/-- repair_membrane_1_ipo.py 184-190 (also 192-208): the ply `p` of orientation `a` becomes `b`. -/
def changePly (sym : Bool) (ss : Stack) (q : List Int) (p : Nat) (a b : Int) : Py (Stack × List Int) :=
  if p = 6666 then
    if a ∈ q then .ok (ss, q.erase a ++ [b]) else .error .valueError
  else .ok (setPly sym ss p b, q)

/-- `sortAccording(l, indices_to_sort)` with `indices_to_sort = [-1] + indices_1`. -/
def sortBucket (ind : List Nat) (l : List Nat) : Py (List Nat) := do
  let r ← sortAccording (l.map Int.ofNat) (-1 :: ind.map Int.ofNat)
  .ok (r.map Int.toNat)

/-- repair_membrane_1_no_ipo.py 160-165: the changed ply is put in its new list, which is sorted. -/
def addOne (sym : Bool) (ind : List Nat) (b : Buckets) (r p : Nat) : Py Buckets :=
  let l := b r ++ [p]
  if sym then .ok (b.upd r (l.insertionSort (fun a b => b ≤ a)))
  else do
    let l' ← sortBucket ind l
    .ok (b.upd r l'.reverse)

/-- repair_membrane_1_ipo.py 218-227: the same for a couple of plies. -/
def addTwo (sym : Bool) (ind : List Nat) (b : Buckets) (r1 p1 r2 p2 : Nat) : Py Buckets :=
  let b1 := b.upd r1 (b r1 ++ [p1])
  let b2 := b1.upd r2 (b1 r2 ++ [p2])
  if sym then
    let b3 := b2.upd r1 ((b2 r1).insertionSort (fun a b => b ≤ a))
    .ok (b3.upd r2 ((b3 r2).insertionSort (fun a b => b ≤ a)))
  else do
    let l1 ← sortBucket ind (b2 r1)
    let b3 := b2.upd r1 l1
    let l2 ← sortBucket ind (b3 r2)
    let b4 := b3.upd r2 l2
    let b5 := b4.upd r1 (b4 r1).reverse
    .ok (b5.upd r2 (b5 r2).reverse)

/-- Result of one iteration: an option is discarded (`continue`) or a change is made. -/
inductive MemStep where
  | skip (opts : List ℚ)
  | move (st : MemState)

/-- Slot of a fibre orientation in `excess_10`. -/
def slotOf (a : Int) : Option Nat :=
  if a = 0 then some 0 else if a = 90 then some 1 else if a = 45 then some 2
  else if a = -45 then some 3 else none

/-- `excess_10[s] += x`. -/
def excAdd (e : Nat → ℚ) (s : Option Nat) (x : ℚ) : Nat → ℚ :=
  match s with
  | none => e
  | some s => fun (j : Nat) => if j = s then e j + x else e j

/-- repair_membrane_1_no_ipo.py 104-141: `none` when the change would break the 10% rule. -/
def guard10One (e : Nat → ℚ) (a1 a2 : Int) : Option (Nat → ℚ) :=
  match slotOf a1 with
  | none => some (excAdd e (slotOf a2) 1)
  | some s => if e s < 1 then none else some (excAdd (excAdd e (some s) (-1)) (slotOf a2) 1)

/-- repair_membrane_1_ipo.py 160-167: a couple of plies +-a is added (`x = 1`) or removed (`x = -1`). -/
def excPair (e : Nat → ℚ) (a : Int) (x : ℚ) : Nat → ℚ :=
  if a = 0 then excAdd e (some 0) (2 * x)
  else if a = 90 then excAdd e (some 1) (2 * x)
  else if a = 45 then excAdd (excAdd e (some 2) x) (some 3) x
  else e

/-- repair_membrane_1_ipo.py 114-167: `none` when the change would break the 10% rule. -/
def guard10Pair (e : Nat → ℚ) (a1 a2 : Int) : Option (Nat → ℚ) :=
  if a1 = 0 ∧ e 0 < 2 then none
  else if a1 = 90 ∧ e 1 < 2 then none
  else if a1 = 45 ∧ (e 2 < 1 ∨ e 3 < 1) then none
  else some (excPair (excPair e a1 (-1)) a2 1)

/-- repair_membrane_1_no_ipo_Abdalla.py 86-91 (repair_membrane_1_ipo_Abdalla.py 113-117). -/
def guardAbdalla (dist : (Nat → ℚ) → ℚ) (e : Nat → ℚ) (lps : Nat → ℚ) : Option (Nat → ℚ) :=
  if dist lps > 1 / 10 ^ 10 then none else some e

/-- The guard of one change: `excess_10` or the distance of Abdalla. -/
def memGuard (abd : Bool) (dist : (Nat → ℚ) → ℚ) (g : (Nat → ℚ) → Int → Int → Option (Nat → ℚ))
    (e lps : Nat → ℚ) (a1 a2 : Int) : Option (Nat → ℚ) :=
  if abd then guardAbdalla dist e lps else g e a1 a2

/-- repair_membrane_1_no_ipo.py 86-174, one iteration of the loop; `abd = true`:
repair_membrane_1_no_ipo_Abdalla.py 70-131. -/
def memStepOne (abd : Bool) (dist : (Nat → ℚ) → ℚ) (c : Cons) (ind : List Nat) (lo : List (Nat → ℚ))
    (st : MemState) (opts : List ℚ) : Py MemStep :=
  let t := argMin opts
  let r1 := t / lo.length
  let r2 := t % lo.length
  let a1 := nth c.angles r1
  let a2 := nth c.angles r2
  if st.idx r1 = [] then .ok (.skip (opts.set t (10 ^ 10)))
  else
    match memGuard abd dist guard10One st.exc (lamAfter lo st.lam t) a1 a2 with
    | none => .ok (.skip (opts.set t (10 ^ 10)))
    | some e => do
      let pb ← popBucket st.idx r1
      let sq ← changePly c.sym st.ss st.queue pb.1 a1 a2
      let b ← addOne c.sym ind pb.2 r2 pb.1
      .ok (.move {
        ss := sq.1
        queue := sq.2
        lam := lamAfter lo st.lam t
        obj := opts.getD t 0
        exc := e
        idx := b
        out := ⟨sq.1, sq.2, lamAfter lo st.lam t, opts.getD t 0⟩ :: st.out })

/-- The orientation of the second ply of a couple: `-angle`, but 90 for 90 (repair_membrane_1_ipo.py
192-208). -/
def partner (a : Int) : Int := if a = 90 then 90 else -a

/-- repair_membrane_1_ipo.py 114-156: there is a couple of plies to be changed. -/
def hasCouple (b : Buckets) (a1 : Int) (r1 r1m : Nat) : Bool :=
  if a1 = 0 ∨ a1 = 90 then decide (2 ≤ (b r1).length)
  else decide (1 ≤ (b r1).length) && decide (1 ≤ (b r1m).length)

/-- Position of the table which is overwritten when the guard fails: repair_membrane_1_ipo.py 120-149
uses the position of the current option, repair_membrane_1_ipo_Abdalla.py 116 uses the positions of the
two angles in `set_of_angles` instead of their positions in `pos_angles` (`IndexError` when too large). -/
def failPos (abd : Bool) (m t r1 r2 : Nat) : Py Nat :=
  if abd then (if r1 < m ∧ r2 < m then .ok (r1 * m + r2) else .error .indexError) else .ok t

/-- repair_membrane_1_ipo.py 99-236, one iteration of the loop; `abd = true`:
repair_membrane_1_ipo_Abdalla.py 81-190. -/
def memStepTwo (abd : Bool) (dist : (Nat → ℚ) → ℚ) (c : Cons) (ind : List Nat) (lo : List (Nat → ℚ))
    (st : MemState) (opts : List ℚ) : Py MemStep := do
  let t := argMin opts
  let a1 := nth c.posAngles (t / lo.length)
  let a2 := nth c.posAngles (t % lo.length)
  let r1 ← rowOf c a1
  let r1m ← rowOf c (-a1)
  let r2 ← rowOf c a2
  let r2m ← rowOf c (-a2)
  if hasCouple st.idx a1 r1 r1m = false then .ok (.skip (opts.set t (10 ^ 10)))
  else
    match memGuard abd dist guard10Pair st.exc (lamAfter lo st.lam t) a1 a2 with
    | none => do
      let f ← failPos abd lo.length t r1 r2
      .ok (.skip (opts.set f (10 ^ 10)))
    | some e => do
      let pb1 ← popBucket st.idx r1
      let pb2 ← popBucket pb1.2 r1m
      let sq1 ← changePly c.sym st.ss st.queue pb1.1 a1 a2
      let sq2 ← changePly c.sym sq1.1 sq1.2 pb2.1 (partner a1) (partner a2)
      let b ← addTwo c.sym ind pb2.2 r2 pb1.1 r2m pb2.1
      .ok (.move {
        ss := sq2.1
        queue := sq2.2
        lam := lamAfter lo st.lam t
        obj := opts.getD t 0
        exc := e
        idx := b
        out := ⟨sq2.1, sq2.2, lamAfter lo st.lam t, opts.getD t 0⟩ :: st.out })

/-- The `while` loop (repair_membrane_1_ipo.py 99-239, repair_membrane_1_no_ipo.py 86-174), with a bound
`fuel` on the number of iterations: `none` when the loop is still running after that many. -/
def memLoop (D : MemData) (lo : List (Nat → ℚ)) (step : MemState → List ℚ → Py MemStep) :
    Nat → MemState → List ℚ → Option (Py MemState)
  | 0, _, _ => none
  | fuel + 1, st, opts =>
    if opts.getD (argMin opts) 0 + 1 / 10 ^ 20 < st.obj ∧ st.obj > 1 / 10 ^ 10 then
      match step st opts with
      | .error e => some (.error e)
      | .ok (.skip opts') => memLoop D lo step fuel st opts'
      | .ok (.move st') =>
        if st'.obj < 1 / 10 ^ 10 then some (.ok st')
        else memLoop D lo step fuel st' (objOptions D lo st'.lam)
    else some (.ok st)

/-- The condition on the 10% rule of the last two attempts: repair_membrane_1_ipo.py 246-247, 279-280,
repair_membrane_1_ipo_Abdalla.py 205-206, 236-237. -/
def lastOk (abd : Bool) (dist : (Nat → ℚ) → ℚ) (e : Nat → ℚ) (s : Nat) (lps : Nat → ℚ) : Bool :=
  if abd then decide (dist lps = 0) else decide (e s > 1 / 2)

/-- repair_membrane_1_ipo.py 246-273 (and 278-304): one ply of orientation `a` becomes `b`, if this
improves the objective; `none` when no change is made. -/
def lastMove (abd : Bool) (dist : (Nat → ℚ) → ℚ) (c : Cons) (D : MemData) (da db : Nat → ℚ) (a b : Int)
    (s : Nat) (st : MemState) : Py (Option MemState) := do
  let r ← rowOf c a
  let lam' := fun (k : Nat) => st.lam k + (db k - da k) / 2
  if st.idx r ≠ [] ∧ lastOk abd dist st.exc s lam' = true ∧ memObj D lam' + 1 / 10 ^ 20 < st.obj then do
    let pb ← popBucket st.idx r
    let sq ← changePly c.sym st.ss st.queue pb.1 a b
    .ok (some {
      ss := sq.1
      queue := sq.2
      lam := lam'
      obj := memObj D lam'
      exc := st.exc
      idx := pb.2
      out := ⟨sq.1, sq.2, lam', memObj D lam'⟩ :: st.out })
  else .ok none

/-- repair_membrane_1_ipo.py 241-304: a 0 ply becomes a 90 ply, or else a 90 ply a 0 ply. -/
def memLast (abd : Bool) (dist : (Nat → ℚ) → ℚ) (c : Cons) (D : MemData) (lo : List (Nat → ℚ))
    (st : MemState) : Py MemState :=
  match c.posAngles.idxOf? 0, c.posAngles.idxOf? 90 with
  | some i0, some i90 => do
    let m1 ← lastMove abd dist c D (memOptRow lo i0) (memOptRow lo i90) 0 90 0 st
    match m1 with
    | some st' => .ok st'
    | none => do
      let m2 ← lastMove abd dist c D (memOptRow lo i90) (memOptRow lo i0) 90 0 1 st
      match m2 with
      | some st' => .ok st'
      | none => .ok st
  | _, _ => .error .indexError

/-- The initial value of `excess_10` (there is none in the Abdalla variants). -/
def startExcess (abd sym : Bool) (ss : Stack) (q : List Int) (mini : Mini10) : Py (Nat → ℚ) :=
  if abd then .ok (fun _ => 0) else calcExcess10 sym ss q mini

/-- The initial state, repair_membrane_1_ipo.py 57-97. -/
def memStart (c : Cons) (attr : DamTolAttr) (D : MemData) (abd : Bool) (mini : Mini10) (ss : Stack)
    (q : List Int) : Py (MemState × List Nat) := do
  let lam ← calcLampamA c D ss q
  let e ← startExcess abd c.sym ss q mini
  let ib ← calcIndPlies c attr D.pA ss q
  .ok ({
    ss := ss
    queue := q
    lam := lam
    obj := memObj D lam
    exc := e
    idx := ib.2
    out := [⟨ss, q, lam, memObj D lam⟩] }, ib.1)

/-- repair_membrane_1_no_ipo.py 27-174 and repair_membrane_1_no_ipo_Abdalla.py 22-134.
`imported = false` is the module as it stands: repair_membrane_1_no_ipo.py neither defines nor imports
`calc_lampamA_ply_queue`, `calc_ind_plies`, `calc_lampamA_options_3`, so that its line 62 raises
`NameError`; `imported = true` is the same code with these names imported from repair_10_bal.py. -/
def memOne (imported : Bool) (abd : Bool) (dist : (Nat → ℚ) → ℚ) (c : Cons) (attr : DamTolAttr)
    (D : MemData) (mini : Mini10) (fuel : Nat) (ss : Stack) (q : List Int) : Option (Py MemState) :=
  if abd = false ∧ imported = false then some (.error .unbound)
  else
    match memStart c attr D abd mini ss q with
    | .error e => some (.error e)
    | .ok (st, ind) =>
      let lo := lampamOptions3 c D ss.length
      memLoop D lo (memStepOne abd dist c ind lo) fuel st (objOptions D lo st.lam)

/-- repair_membrane_1_ipo.py 28-306 and repair_membrane_1_ipo_Abdalla.py 25-258.
`imported = false` is the module as it stands: repair_membrane_1_ipo.py neither defines nor imports
`calc_lampamA_options_1`, so that its line 94 raises `NameError`. -/
def memTwo (imported : Bool) (abd : Bool) (dist : (Nat → ℚ) → ℚ) (c : Cons) (attr : DamTolAttr)
    (D : MemData) (mini : Mini10) (fuel : Nat) (ss : Stack) (q : List Int) : Option (Py MemState) :=
  match memStart c attr D abd mini ss q with
  | .error e => some (.error e)
  | .ok (st, ind) =>
    if abd = false ∧ imported = false then some (.error .unbound)
    else
      match lampamOptions1 c D ss.length with
      | .error e => some (.error e)
      | .ok lo =>
        match memLoop D lo (memStepTwo abd dist c ind lo) fuel st (objOptions D lo st.lam) with
        | none => none
        | some (.error e) => some (.error e)
        | some (.ok st') => some (memLast abd dist c D lo st')

/-- repair_membrane.py 61-82 `repair_membrane_1`. -/
def repairMembrane1 (imported : Bool) (dist : (Nat → ℚ) → ℚ) (c : Cons) (attr : DamTolAttr)
    (D : MemData) (mini : Mini10) (fuel : Nat) (ss : Stack) (q : List Int) : Option (Py MemState) :=
  let abd := c.rule10 && c.rule10Abdalla
  if c.ipo then memTwo imported abd dist c attr D mini fuel ss q
  else memOne imported abd dist c attr D mini fuel ss q

/-- `np.isclose(np.array([0, 0, 0, 0], float), in_plane_coeffs).all()`, repair_membrane.py 37, 48. -/
def memNoCoeffs (D : MemData) : Bool :=
  (List.range 4).all (fun (k : Nat) =>
    decide (|D.coeffs k| ≤ 1 / 10 ^ 8 + 1 / 10 ^ 5 * |D.coeffs k|))

/-- repair_membrane.py 28-58 `repair_membrane`: the stacks and queues of the candidates, the most recent
one first (`lampamA_list` is dropped by all callers and is not modelled).  The branches with and
without `multipanel` are the same. -/
def repairMembrane (imported : Bool) (switch : Bool) (dist : (Nat → ℚ) → ℚ) (c : Cons) (attr : DamTolAttr)
    (D : MemData) (mini : Mini10) (fuel : Nat) (ss : Stack) (q : List Int) :
    Option (Py (List (Stack × List Int))) :=
  if switch = false ∨ memNoCoeffs D = true then
    match calcLampamA c D ss q with
    | .error e => some (.error e)
    | .ok _ => some (.ok [(ss, q)])
  else
    match repairMembrane1 imported dist c attr D mini fuel ss q with
    | none => none
    | some (.error e) => some (.error e)
    | some (.ok st) => some (.ok (st.out.map (fun (x : MemCand) => (x.ss, x.queue))))

end Bella
