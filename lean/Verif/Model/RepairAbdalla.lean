import Verif.Model.Membrane
/-
Models of src/RELAY/repair_10_bal.py: `repair_10_bal`, `repair_10_Abdalla_ipo`,
`repair_10_Abdalla_no_ipo`, `calc_dist_10_options_1`, `calc_dist_10_options_3`.

The distance of `calc_distance_Abdalla` (square roots) is an arbitrary function parameter `dist`.
The bodies of the two loops are, line by line, those of the loops of repair_membrane_1_ipo_Abdalla.py and
repair_membrane_1_no_ipo_Abdalla.py without the test on the distance, so that the models of these are reused with a
test which always succeeds (`noTest`).
-/
namespace Bella

/-- A test on the distance which always succeeds. -/
def noTest : (Nat → ℚ) → ℚ := fun _ => 0

/-- repair_10_bal.py 437-461 `calc_dist_10_options_1` and 463-482 `calc_dist_10_options_3`: the square table of the
distances, flattened row by row. -/
def distOptions (dist : (Nat → ℚ) → ℚ) (lo : List (Nat → ℚ)) (lam : Nat → ℚ) : List ℚ :=
  (List.range (lo.length * lo.length)).map (fun (t : Nat) =>
    if t / lo.length = t % lo.length then 10 ^ 10 else dist (lamAfter lo lam t))

/-- repair_10_bal.py 85-180 and 269-319, the `while` loops; `obj` is `dist_10`; with a bound `fuel` on the number
of iterations: `none` when the loop is still running after that many. -/
def abdLoop (dist : (Nat → ℚ) → ℚ) (lo : List (Nat → ℚ)) (step : MemState → List ℚ → Py MemStep) :
    Nat → MemState → List ℚ → Option (Py MemState)
  | 0, _, _ => none
  | fuel + 1, st, opts =>
    if st.obj > 1 / 10 ^ 10 then
      match step st opts with
      | .error e => some (.error e)
      | .ok (.skip opts') => abdLoop dist lo step fuel st opts'
      | .ok (.move st') =>
        if st'.obj < 1 / 10 ^ 10 then some (.ok st')
        else abdLoop dist lo step fuel st' (distOptions dist lo st'.lam)
    else some (.ok st)

/-- repair_10_bal.py 188-213 (and 216-237): one ply of orientation `a` becomes `b`, if this reduces the
distance; `none` when no change is made. -/
def abdLastMove (dist : (Nat → ℚ) → ℚ) (c : Cons) (da db : Nat → ℚ) (a b : Int) (st : MemState) :
    Py (Option MemState) := do
  let r ← rowOf c a
  let lam' := fun (k : Nat) => st.lam k + (db k - da k) / 2
  if st.idx r ≠ [] ∧ dist lam' + 1 / 10 ^ 20 < st.obj then do
    let pb ← popBucket st.idx r
    let sq ← changePly c.sym st.ss st.queue pb.1 a b
    .ok (some {
      ss := sq.1
      queue := sq.2
      lam := lam'
      obj := dist lam'
      exc := st.exc
      idx := pb.2
      out := ⟨sq.1, sq.2, lam', dist lam'⟩ :: st.out })
  else .ok none

/-- repair_10_bal.py 184-239: a 0 ply becomes a 90 ply, or else a 90 ply a 0 ply. -/
def abdLast (dist : (Nat → ℚ) → ℚ) (c : Cons) (lo : List (Nat → ℚ)) (st : MemState) : Py MemState :=
  match c.posAngles.idxOf? 0, c.posAngles.idxOf? 90 with
  | some i0, some i90 => do
    let m1 ← abdLastMove dist c (memOptRow lo i0) (memOptRow lo i90) 0 90 st
    match m1 with
    | some st' => .ok st'
    | none => do
      let m2 ← abdLastMove dist c (memOptRow lo i90) (memOptRow lo i0) 90 0 st
      match m2 with
      | some st' => .ok st'
      | none => .ok st
  | _, _ => .error .indexError

/-- The initial state, repair_10_bal.py 67-75 and 252-259 (`p_A = 100`, the default of `calc_ind_plies`). -/
def abdStart (dist : (Nat → ℚ) → ℚ) (c : Cons) (attr : DamTolAttr) (D : MemData) (ss : Stack) (q : List Int) :
    Py (MemState × List Nat) := do
  let lam ← calcLampamA c D ss q
  let ib ← calcIndPlies c attr 100 ss q
  .ok ({
    ss := ss
    queue := q
    lam := lam
    obj := dist lam
    exc := fun _ => 0
    idx := ib.2
    out := [⟨ss, q, lam, dist lam⟩] }, ib.1)

/-- repair_10_bal.py 242-321 `repair_10_Abdalla_no_ipo`. -/
def abdOne (dist : (Nat → ℚ) → ℚ) (c : Cons) (attr : DamTolAttr) (D : MemData) (fuel : Nat) (ss : Stack)
    (q : List Int) : Option (Py MemState) :=
  match abdStart dist c attr D ss q with
  | .error e => some (.error e)
  | .ok (st, ind) =>
    let lo := lampamOptions3 c D ss.length
    abdLoop dist lo (memStepOne true noTest c ind lo) fuel st (distOptions dist lo st.lam)

/-- repair_10_bal.py 57-239 `repair_10_Abdalla_ipo`. -/
def abdTwo (dist : (Nat → ℚ) → ℚ) (c : Cons) (attr : DamTolAttr) (D : MemData) (fuel : Nat) (ss : Stack)
    (q : List Int) : Option (Py MemState) :=
  match abdStart dist c attr D ss q with
  | .error e => some (.error e)
  | .ok (st, ind) =>
    match lampamOptions1 c D ss.length with
    | .error e => some (.error e)
    | .ok lo =>
      match abdLoop dist lo (memStepTwo true noTest c ind lo) fuel st (distOptions dist lo st.lam) with
      | none => none
      | some (.error e) => some (.error e)
      | some (.ok st') => some (abdLast dist c lo st')

/-- The returned pair. -/
def memPair : Option (Py MemState) → Option (Py (Stack × List Int))
  | none => none
  | some (.error e) => some (.error e)
  | some (.ok st) => some (.ok (st.ss, st.queue))

/-- repair_10_bal.py 33-55 `repair_10_bal`. -/
def repair10Bal (dist : (Nat → ℚ) → ℚ) (c : Cons) (attr : DamTolAttr) (D : MemData) (mini : Mini10) (fuel : Nat)
    (ss : Stack) : Option (Py (Stack × List Int)) :=
  if (c.rule10 && c.rule10Abdalla) = false then some (.ok (repair10Bal2 c mini ss))
  else
    let r := repair10Bal2 c (calcMini10 c ss.length) ss
    if c.bal then memPair (abdTwo dist c attr D fuel r.1 r.2)
    else memPair (abdOne dist c attr D fuel r.1 r.2)

end Bella
