import Verif.Model.Guidelines
/-
Models of src/guidelines/internal_contig.py, internal_diso_contig.py, external_contig.py and
external_diso_contig.py.  A matrix of candidate sub-laminates is the list of its rows; the number
of columns `w` is an argument as a numpy array carries it even without rows.
-/
namespace Bella

/-- The loops `for ii in range(a)[::-1]: if <bad row>: angle = np.delete(angle, ii);
angle2 = np.delete(angle2, ii)` (e.g. internal_diso_contig.py 53-63): row `ii` is examined from the
last to the first one, and deleted from both matrices. `angle2` may be absent (`None`). -/
def deleteRows {α β : Type} (bad : α → Bool) :
    Nat → List α × Option (List β) → List α × Option (List β)
  | 0, t => t
  | i + 1, (A, B) =>
    match A[i]? with
    | some r =>
      if bad r then deleteRows bad i (A.eraseIdx i, B.map (fun b => b.eraseIdx i))
      else deleteRows bad i (A, B)
    | none => deleteRows bad i (A, B)

/-- internal_contig.py 97-254 = internal_diso_contig.py 65-183: deletion of the rows with a hit of
the contiguity window.  (The conjunctions of the `angle2 is None` branch compare with
`angle[ii, jj]` and those of the other one with `angle[ii, jj + 1]`: same window.) -/
def internalContigPass {β : Type} (c : Cons) (w : Nat) (t : List Stack × Option (List β)) :
    Py (List Stack × Option (List β)) :=
  if c.contig then
    if c.nContig < w then
      if c.nContig = 2 ∨ c.nContig = 3 ∨ c.nContig = 4 ∨ c.nContig = 5 ∨ c.nContig = 6 then
        .ok (deleteRows (fun r => (List.range (w - c.nContig)).any
          (fun jj => contigHit r c.nContig jj)) t.1.length t)
      else .error (.exc "constraints.n_contig must be 2, 3, 4 or 5")
    else .ok t
  else .ok t

/-- internal_contig.py 75-255 `internal_contig`. -/
def internalContig {β : Type} (c : Cons) (w : Nat) (A : List Stack) (B : Option (List β)) :
    Py (List Stack × Option (List β)) := internalContigPass c w (A, B)

/-- internal_diso_contig.py 12-184 `internal_diso_contig`. -/
def internalDisoContig {β : Type} (c : Cons) (w : Nat) (A : List Stack) (B : Option (List β)) :
    Py (List Stack × Option (List β)) :=
  internalContigPass c w
    (if c.diso then
      deleteRows (fun r => (List.range (w - 1)).any
        (fun jj => ! isDiso (nth r (jj + 1)) (nth r jj) c.deltaAngle)) A.length (A, B)
    else (A, B))

/-- external_contig.py 51-114, 122-184, 192-…, external_diso_contig.py 64-127, …: the hand-written
conjunction for `k` plies of `ss_before` and `n + 1 - k` plies of the row: they all equal
`ss_before[-1]`. -/
def junctionHit (before : Stack) (n k : Nat) (row : Stack) : Bool :=
  (List.range k).all (fun j => nth before.reverse j == nth before.reverse 0) &&
  (List.range (n + 1 - k)).all (fun j => nth row j == nth before.reverse 0)

/-- external_diso_contig.py 62-131 (`k = 1`), 134-201 (`k = 2`), 204-262, 264-313, 315-…,
…-386 (`k = 6`): the block `if ss_beforeLength >= k:`, which does nothing for `n_contig < k` and,
except for `n_contig = k`, requires `n_plies_group > n_contig - k`. -/
def junctionPass {β : Type} (n np : Nat) (before : Stack) (t : List Stack × Option (List β))
    (k : Nat) : List Stack × Option (List β) :=
  if k ≤ before.length ∧ k ≤ n ∧ (k = n ∨ n - k < np) then
    deleteRows (junctionHit before n k) t.1.length t
  else t

/-- external_diso_contig.py 59-386 and 406-…: all the contiguity blocks. -/
def externalContigPass {β : Type} (c : Cons) (np : Nat) (before : Stack)
    (t : List Stack × Option (List β)) : Py (List Stack × Option (List β)) :=
  if c.contig then
    if 1 ≤ before.length then
      if c.nContig = 2 ∨ c.nContig = 3 ∨ c.nContig = 4 ∨ c.nContig = 5 ∨ c.nContig = 6 then
        .ok ([1, 2, 3, 4, 5, 6].foldl (junctionPass c.nContig np before) t)
      else .error (.exc "constraints.n_contig must be 2, 3, 4 or 5")
    else .ok t
  else .ok t

/-- external_diso_contig.py 12-785 `external_diso_contig` (`np` is `n_plies_group`). -/
def externalDisoContig {β : Type} (c : Cons) (w np : Nat) (before : Stack) (A : List Stack)
    (B : Option (List β)) : Py (List Stack × Option (List β)) :=
  if np > w then .error (.exc "The input set of angles have fewer elements")
  else externalContigPass c np before
    (if c.diso = true ∧ before.length ≠ 0 then
      deleteRows (fun r => ! isDiso (nth r 0) (nth before.reverse 0) c.deltaAngle) A.length (A, B)
    else (A, B))

/-- external_contig.py 13-735 `external_contig`: with a companion matrix the blocks of lines
380-735 delete rows of `angle` only, `angle2` is returned as it came. -/
def externalContig {β : Type} (c : Cons) (w np : Nat) (before : Stack) (A : List Stack)
    (B : Option (List β)) : Py (List Stack × Option (List β)) :=
  if np > w then .error (.exc "The input set of angles have fewer elements")
  else
    match externalContigPass (β := β) c np before (A, none) with
    | .error e => .error e
    | .ok t => .ok (t.1, B)

end Bella
