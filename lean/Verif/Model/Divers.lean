import Verif.Model.Basic
import Mathlib.Data.List.Sort
import Mathlib.Algebra.Order.Ring.Int
import Mathlib.Algebra.Order.Field.Rat
import Mathlib.Data.Rat.Defs
/-
Models of src/divers/sorting.py and src/divers/arrays.py
-/
namespace Bella

/-- sorting.py 9-18 `first`: binary search for the first occurrence of `x` in `arr`
(`-1` if not found). -/
def first (arr : List Int) (low high : Int) (x : Int) : Int :=
  if _h : high ≥ low then
    let mid := low + (high - low) / 2
    if (mid = 0 ∨ x > nth arr (mid - 1).toNat) ∧ nth arr mid.toNat = x then mid
    else if x > nth arr mid.toNat then first arr (mid + 1) high x
    else first arr low (mid - 1) x
  else -1
termination_by (high + 1 - low).toNat
decreasing_by all_goals omega

/-- State of `sortAccording`: the list `A1` being overwritten, the next position `ind` to write
and the marks `visited`. -/
structure SortState where
  a1 : List Int
  ind : Nat
  visited : List Bool
  deriving DecidableEq, Repr

/-- sorting.py 58 and 66 `A1[ind] = v; ind = ind + 1`; out of range raises. -/
def SortState.write (s : SortState) (v : Int) : Py SortState :=
  if s.ind < s.a1.length then .ok { s with a1 := s.a1.set s.ind v, ind := s.ind + 1 }
  else .error .indexError

/-- sorting.py 56-61, the `while` loop copying all occurrences of `x` from position `j` on. -/
def copyOcc (temp : List Int) (x : Int) (j : Nat) (s : SortState) : Py SortState :=
  if h : j < temp.length then
    if temp[j] = x then do
      let s' ← s.write temp[j]
      copyOcc temp x (j + 1) { s' with visited := s'.visited.set j true }
    else .ok s
  else .ok s
termination_by temp.length - j

/-- sorting.py 44-61, the loop over `A2`. -/
def copyLoop (temp : List Int) : List Int → SortState → Py SortState
  | [], s => .ok s
  | x :: xs, s =>
    let f := first temp 0 ((temp.length : Int) - 1) x
    if f = -1 then copyLoop temp xs s
    else do
      let s' ← copyOcc temp x f.toNat s
      copyLoop temp xs s'

/-- sorting.py 65-68, the loop copying the items not visited. -/
def copyRest (temp : List Int) : List Nat → SortState → Py SortState
  | [], s => .ok s
  | i :: is, s =>
    if s.visited.getD i false = false then do
      let s' ← s.write (nth temp i)
      copyRest temp is s'
    else copyRest temp is s

/-- sorting.py 22-68 `sortAccording(A1, A2)`: the final content of `A1` (modified in place). -/
def sortAccording (a1 a2 : List Int) : Py (List Int) := do
  let temp := a1.insertionSort (· ≤ ·)
  let s ← copyLoop temp a2 ⟨a1, 0, List.replicate a1.length false⟩
  let s ← copyRest temp (List.range a1.length) s
  return s.a1

/-- arrays.py 11-51 `max_arrays`, for one-dimensional arrays or numbers (a number is the
one-element array of lines 32-35). The `ones` arrays of lines 41 and 46 are `replicate`. -/
def maxArrays (x y : List ℚ) : Py (List ℚ) :=
  if x.length = 1 then
    if y.length = 1 then .ok [max (x.getD 0 0) (y.getD 0 0)]
    else .ok (List.zipWith max (List.replicate y.length (x.getD 0 0)) y)
  else if y.length = 1 then .ok (List.zipWith max x (List.replicate x.length (y.getD 0 0)))
  else if x.length ≠ y.length then .error .valueError
  else .ok (List.zipWith max x y)

end Bella
