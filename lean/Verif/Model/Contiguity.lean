import Verif.Model.Disorientation
/-
Model of src/guidelines/contiguity.py
-/
namespace Bella

/-- contiguity.py 91-92, 96-98, 102-105, 109-113, 117-122: the hand-written test of the window
starting at `ind`, for each supported `n_contig` (the comparisons are copied one by one). -/
def contigHit (ss : Stack) (nContig ind : Nat) : Bool :=
  match nContig with
  | 2 => nth ss ind == nth ss (ind + 1) && nth ss (ind + 2) == nth ss (ind + 1)
  | 3 => nth ss ind == nth ss (ind + 1) && nth ss (ind + 2) == nth ss (ind + 1)
          && nth ss (ind + 3) == nth ss (ind + 1)
  | 4 => nth ss ind == nth ss (ind + 1) && nth ss (ind + 2) == nth ss (ind + 1)
          && nth ss (ind + 2) == nth ss (ind + 3) && nth ss ind == nth ss (ind + 4)
  | 5 => nth ss ind == nth ss (ind + 1) && nth ss ind == nth ss (ind + 2)
          && nth ss ind == nth ss (ind + 3) && nth ss ind == nth ss (ind + 4)
          && nth ss ind == nth ss (ind + 5)
  | 6 => nth ss ind == nth ss (ind + 1) && nth ss ind == nth ss (ind + 2)
          && nth ss ind == nth ss (ind + 3) && nth ss ind == nth ss (ind + 4)
          && nth ss ind == nth ss (ind + 5) && nth ss ind == nth ss (ind + 6)
  | _ => false

/-- contiguity.py 75-126 `is_contig` (`n_contig` is modelled as a natural number). -/
def isContig (ss : Stack) (nContig : Nat) : Py Bool :=
  let nPlies := ss.length
  if nContig < nPlies then
    let diff := nPlies - nContig
    if nContig = 2 ∨ nContig = 3 ∨ nContig = 4 ∨ nContig = 5 ∨ nContig = 6 then
      .ok ((List.range diff).all (fun ind => ! contigHit ss nContig ind))
    else if nContig ≠ 1 then
      .error (.exc "n_contig must be 2, 3, 4 or 5.")
    else .ok true
  else .ok true

/-- contiguity.py 242-256 `calc_contig_vector` (0/1 vector as booleans). -/
def calcContigVector (ss : Stack) (nContig : Nat) : Py (List Bool) :=
  if 0 < ss.length - nContig then
    (List.range (ss.length - nContig)).mapM (fun ind => do
      let ok ← isContig (slice ss ind (ind + nContig + 1)) nContig
      return !ok)
  else .ok []

/-- contiguity.py 286-296: the loop over plies with its state `before`; the result array has
dtype bool, so `+= 1` and `+= 2` both store `True`. -/
def violContigLoop (ss : Stack) (nContig : Nat) : List Nat → Nat → Py (List Bool)
  | [], _ => .ok []
  | ind :: rest, before => do
    let ok ← isContig (slice ss ind (ind + nContig + 1)) nContig
    if !ok then
      if before = 0 then do
        let tl ← violContigLoop ss nContig rest 1
        return (0 + 1 != (0 : Nat)) :: tl
      else do
        let tl ← violContigLoop ss nContig rest 1
        return (0 + 2 != (0 : Nat)) :: tl
    else do
      let tl ← violContigLoop ss nContig rest 0
      return false :: tl

/-- contiguity.py 258-297 `calc_matrix_viol_contig`, the row of one panel. -/
def violContigRow (ss : Stack) (nContig : Nat) : Py (List Bool) :=
  violContigLoop ss nContig (List.range ss.length) 0

/-- contiguity.py 322-340 `calc_penalty_contig_ss`. -/
def calcPenaltyContigSs (ss : Stack) (nContig : Nat) (damTol : Bool) (attr : DamTolAttr) :
    Py Nat := do
  let row ← violContigRow (trimDamTol ss damTol attr) nContig
  return countTrue row

/-- contiguity.py 300-320 `calc_penalty_contig_mp`. -/
def calcPenaltyContigMp (ss : List Stack) (nContig : Nat) (damTol : Bool) (attr : DamTolAttr) :
    Py (List Nat) :=
  ss.mapM (fun el => calcPenaltyContigSs el nContig damTol attr)

end Bella
