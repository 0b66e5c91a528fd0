import Verif.Model.Guidelines
import Verif.Model.DividePanels
import Mathlib.Algebra.Order.Floor.Ring
import Mathlib.Data.Rat.Floor
/-
Model of src/RELAY/repair_10_bal.py, the ply-count variant of the 10% rule
-/
namespace Bella

/-- The five entries of the array `mini_10`.  The first two may be half-integers (symmetric laminates
with a middle ply), the others are whole numbers at every point where they are read. -/
structure Mini10 where
  m0 : ℚ
  m90 : ℚ
  m45 : Int
  m135 : Int
  m45_135 : Int
  deriving DecidableEq

/-- repair_10_bal.py 501-505 = 515-519: the minimum of the combined direction made even, then the
two minima of the +45 and -45 directions made equal. -/
def ipoAdjust (m45 m4 : Int) : Int × Int :=
  let m4' := if m4 % 2 ≠ 0 then max (m4 + 1) (2 * m45) else m4
  (max m45 (m4' / 2), m4')

/-- repair_10_bal.py 499-521: the minima derived from the five whole numbers of lines 494-498. -/
def mini10Of (sym ipo odd : Bool) (a0 a90 a45 a135 a4 : Int) : Mini10 :=
  let b45 := if ipo then (ipoAdjust (max a45 a135) a4).1 else a45
  let b135 := if ipo then b45 else a135
  let b4 := if ipo then (ipoAdjust (max a45 a135) a4).2 else a4
  if sym then
    let h0 : ℚ := if odd then (a0 : ℚ) / 2 else (ceilDiv a0 2 : ℚ)
    let h90 : ℚ := if odd then (a90 : ℚ) / 2 else (ceilDiv a90 2 : ℚ)
    let h45 := ceilDiv b45 2
    let h135 := ceilDiv b135 2
    let h4 := ceilDiv b4 2
    if ipo then
      let r := ipoAdjust h45 h4
      ⟨h0, h90, r.1, r.1, r.2⟩
    else ⟨h0, h90, h45, h135, h4⟩
  else ⟨a0, a90, b45, b135, b4⟩

/-- repair_10_bal.py 484-523 `calc_mini_10` (exact rational arithmetic instead of floats). -/
def calcMini10 (c : Cons) (n : Nat) : Mini10 :=
  mini10Of c.sym c.ipo (n % 2 == 1) ⌈c.p0 * n⌉ ⌈c.p90 * n⌉ ⌈c.p45 * n⌉ ⌈c.p135 * n⌉ ⌈c.p45_135 * n⌉

/-- repair_10_bal.py 346-354: the order in which plies are considered: from outside to inside for
one half of a symmetric laminate, alternately from the end and from the beginning otherwise. -/
def indPlies (sym : Bool) (n : Nat) : List Nat :=
  if sym then List.range (n / 2)
  else interleave ((List.range n).drop (n / 2)).reverse ((List.range n).take (n / 2))

/-- repair_10_bal.py 357-366: the initial queue. -/
def initQueue (c : Cons) (m : Mini10) : List Int :=
  if c.rule10 then
    List.replicate (⌈m.m0⌉).toNat 0 ++ List.replicate (⌈m.m90⌉).toNat 90
      ++ List.replicate m.m45.toNat 45 ++ List.replicate m.m135.toNat (-45)
  else []

/-- repair_10_bal.py 369-373: the number of additional +45 or -45 plies. -/
def initMissing (c : Cons) (m : Mini10) : Int :=
  if c.rule10 = true ∧ c.p45_135 ≠ 0 then m.m45_135 - m.m45 - m.m135 else 0

/-- repair_10_bal.py 390-397: one ply is taken out of the queue, or the queue receives the ply which
balances it. -/
def queueStep (ipo : Bool) (a : Int) (q : List Int) : List Int :=
  if a ∈ q then q.erase a
  else if ipo = true ∧ ¬ (a = 0 ∨ a = 90) then q ++ [-a]
  else q

/-- repair_10_bal.py 396-397. -/
def missingStep (ipo : Bool) (a : Int) (q : List Int) (m : Int) : Int :=
  if a ∈ q then m
  else if ipo = false ∧ (a = 45 ∨ a = -45) then max 0 (m - 1)
  else m

/-- repair_10_bal.py 377-409: the loop over the plies; the third component is the rank of the ply at
which the loop stops (`last_ply`), if it does. -/
def queueLoop (ipo : Bool) : List Int → List Int → Int → Nat → List Int × Int × Option Nat
  | [], q, m, _ => (q, m, none)
  | a :: rest, q, m, k =>
    let q' := queueStep ipo a q
    let m' := missingStep ipo a q m
    if (rest.length : Int) < (q'.length : Int) + m' then (q, m', some k)
    else queueLoop ipo rest q' m' (k + 1)

/-- repair_10_bal.py 404-407: plies replaced by the mark 666 (and their mirror images). -/
def clearPlies (sym : Bool) : List Nat → Stack → Stack
  | [], ss => ss
  | i :: is, ss =>
    let s1 := ss.set i 666
    clearPlies sym is (if sym then s1.set (s1.length - i - 1) 666 else s1)

/-- repair_10_bal.py 343-344: the middle ply of a symmetric laminate is made a 0 ply unless it is a
0 or a 90 ply. -/
def fixMiddle (sym : Bool) (ss : Stack) : Stack :=
  if sym = true ∧ ss.length % 2 ≠ 0 ∧ ¬ (nth ss (ss.length / 2) = 0 ∨ nth ss (ss.length / 2) = 90)
  then ss.set (ss.length / 2) 0 else ss

/-- repair_10_bal.py 417-421: the additional +45 and -45 plies. -/
def extra45 (m : Int) : List Int :=
  (List.range m.toNat).map (fun k => if k % 2 ≠ 0 then 45 else -45)

/-- repair_10_bal.py 324-435 `repair_10_bal_2`. -/
def repair10Bal2 (c : Cons) (mini : Mini10) (ss : Stack) : Stack × List Int :=
  if c.ipo = false ∧ c.rule10 = false then (ss, [])
  else
    let ss1 := fixMiddle c.sym ss
    let ind := indPlies c.sym ss1.length
    let r := queueLoop c.ipo (ind.map (nth ss1)) (initQueue c mini) (initMissing c mini) 0
    let q := r.1 ++ extra45 r.2.1
    match r.2.2 with
    | none => (ss1, q)
    | some k =>
      (clearPlies c.sym (ind.drop k) ss1,
        if k + q.length ≠ ind.length then q ++ [0] else q)

end Bella
