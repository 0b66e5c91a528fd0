import Verif.Model.Blending
import Mathlib.Data.Rat.Floor
/-
Models of src/BELLA/divide_panels.py, of src/LAYLA_V02/divide_laminate_sym.py and
divide_laminate_asym.py and of `calc_ply_drops` (src/BELLA/multipanels.py).
-/
namespace Bella

/-- `ma.ceil(a / b)` for a positive integer `b`. -/
def ceilDiv (a b : Int) : Int := -((-a) / b)

/-- divide_panels.py 86-110 (symmetric) and 167-189 (asymmetric; the negative indices
`[-n_full_groups:]`, `[-(n_full_groups + 1)]` address the same entries); the same code is in
divide_laminate_sym.py 66-91 and divide_laminate_asym.py 54-77: sizes of `g` groups for `N` plies.
Simplification: the positions `g - n_full_groups` and `g - n_full_groups - 1` are natural numbers
(they are never negative for the numbers of groups the loop reaches). -/
def fillGroups (N gmin gmax : Int) (g : Nat) : List Int :=
  let extra0 := N - g * gmin
  let full : Nat := if extra0 ≥ gmax - gmin ∧ extra0 ≠ 0 then (extra0 / (gmax - gmin)).toNat else 0
  let extra := if extra0 ≥ gmax - gmin ∧ extra0 ≠ 0 then extra0 % (gmax - gmin) else extra0
  let sizes := (List.replicate g gmin).take (g - full) ++ List.replicate (g - (g - full)) gmax
  if extra ≠ 0 then sizes.modify (g - full - 1) (· + extra) else sizes

/-- divide_panels.py 73-119 and 154-213: the loop over the numbers of groups, stopping at the first
one that is not skipped; if all are skipped the names used after the loop are unbound.
`np.ones((n_groups,))` raises for a negative number of groups. -/
def groupLoop (N gmin gmax : Int) : List Int → Py (List Int)
  | [] => .error .unbound
  | g :: gs =>
    if g * gmax - N > (gmax - gmin) * g then groupLoop N gmin gmax gs
    else if g = 0 then groupLoop N gmin gmax gs
    else if g < 0 then .error .valueError
    else .ok (fillGroups N gmin gmax g.toNat)

/-- divide_panels.py 61-119 (`N = floor(n_lam/2)`) and 143-213 (`N = n_lam`): group sizes for the
thickest laminate. `PartitioningError` if there is no admissible number of groups. -/
def partitionSizes (N gmin gmax : Int) : Py (List Int) :=
  let mini := ceilDiv N gmax
  let maxi := N / gmin
  if mini > maxi then .error (.exc "PartitioningError")
  else groupLoop N gmin gmax ((List.range (maxi + 1 - mini).toNat).map (fun (k : Nat) => mini + (k : Int)))

/-- `pos[ind] = pos[ind - 1] + sizes[ind - 1]`, starting with `start`
(divide_panels.py 114-118, 202-206, 330-336, 356-359). -/
def cumulPos (start : Int) : List Int → List Int
  | [] => []
  | s :: ss => start :: cumulPos (start + s) ss

/-- numpy slice `l[0::2]`. -/
def evens {α : Type} : List α → List α
  | [] => []
  | [a] => [a]
  | a :: _ :: l => a :: evens l

/-- numpy slice `l[1::2]`. -/
def odds {α : Type} : List α → List α
  | [] => []
  | [_] => []
  | _ :: b :: l => b :: odds l

/-- The two slice assignments `p[0::2] = a`, `p[1::2] = b`
(divide_panels.py 208-212, 361-364). -/
def interleave {α : Type} : List α → List α → List α
  | [], b => b
  | x :: a, [] => x :: a
  | x :: a, y :: b => x :: y :: interleave a b

/-- divide_panels.py 112-118 and 330-336 (symmetric), 191-212 and 341-364 (asymmetric): position of
the first ply of each group; `start` is 0 for the thickest panel and `n_covering` for the others. -/
def firstPlies (sym : Bool) (start : Int) (sizes : List Int) : List Int :=
  if sym then cumulPos start sizes
  else
    let order := evens sizes ++ (odds sizes).reverse
    let pos := cumulPos start order
    let mid := (evens sizes).length
    interleave (pos.take mid) (pos.drop mid).reverse

/-- divide_panels.py 56-224: partition of the thickest panel of `nMax` plies.
`thick_panel_has_middle_ply` (multipanels.py 225-230) is "the laminates are symmetric and `nMax` is
odd". The last test `n_groups > maxi` cannot be true after the loop and is left out. -/
def divideThickest (sym : Bool) (nMax nCov gmin gmax : Int) : Py (List Int × List Int) := do
  let nLam := nMax - 2 * nCov
  if sym then do
    let sizes ← partitionSizes (nLam / 2) gmin gmax
    (if nMax % 2 = 1 then
      (if sizes.sum * 2 + 1 ≠ nLam then Except.error (.exc "Wrong partitioning!") else .ok ())
    else
      (if sizes.sum * 2 ≠ nLam then Except.error (.exc "Wrong partitioning!") else .ok ()))
    return (sizes, firstPlies true 0 sizes)
  else do
    let sizes ← partitionSizes nLam gmin gmax
    (if sizes.sum ≠ nLam then Except.error (.exc "Wrong partitioning!") else .ok ())
    return (sizes, firstPlies false 0 sizes)

/-- divide_panels.py 274-280: number of ply drops of a panel of `n` plies (of one half for
symmetric laminates; a half-integer when only the thickest panel has a middle ply). -/
def nDrops (sym : Bool) (nMax n : Int) : ℚ :=
  if sym then ((nMax - (if n % 2 = 1 then n - 1 else n) : Int) : ℚ) / 2
  else ((nMax - n : Int) : ℚ)

/-- divide_panels.py 239-240 and 288: `np.floor(n_drops*percent_thickness)`. Exact arithmetic. -/
def uniformDrops (drops : ℚ) (sizes : List Int) : List Int :=
  sizes.map (fun (s : Int) => ⌊drops * ((s : ℚ) / (sizes.sum : ℚ))⌋)

/-- divide_panels.py 305 `int(...)`, truncation towards zero. -/
def pyInt (q : ℚ) : Int := if 0 ≤ q then ⌊q⌋ else ⌈q⌉

/-- divide_panels.py 311-317: one pass over the groups, giving one more drop to the groups of size
`target` until no drop is missing. -/
def dropPass (target : Int) : List Int → List Int → Int → List Int × Int
  | s :: sizes, d :: drops, missing =>
    if s = target then
      if missing - 1 = 0 then ((d + 1) :: drops, missing - 1)
      else ((d + 1) :: (dropPass target sizes drops (missing - 1)).1,
        (dropPass target sizes drops (missing - 1)).2)
    else (d :: (dropPass target sizes drops missing).1, (dropPass target sizes drops missing).2)
  | _, drops, missing => (drops, missing)

/-- divide_panels.py 309-318: the `while` loop, with a bound `fuel` on the number of iterations
(`none`: the loop has not ended within that many iterations). -/
def dropLoop (gmax : Int) (sizes : List Int) : Nat → Int → List Int → Int → Option (List Int)
  | 0, _, drops, missing => if missing > 0 then none else some drops
  | fuel + 1, iteration, drops, missing =>
    if missing > 0 then
      dropLoop gmax sizes fuel (iteration + 1) (dropPass (gmax - iteration) sizes drops missing).1
        (dropPass (gmax - iteration) sizes drops missing).2
    else some drops

/-- What `divide_panels` stores in a panel. -/
structure PanelGroups where
  sizes : List Int
  firsts : List Int
  drops : List Int
  deriving DecidableEq, Repr

/-- divide_panels.py 252-365: division of a panel of `n` plies, `thick` being the sizes and first
plies of the thickest panel, and `d0` the table of line 288. `none`: the `while` loop is still running
after `fuel` iterations. -/
def dividePanelWith (sym : Bool) (nMax nCov gmax : Int) (thick : List Int × List Int) (n : Int)
    (d0 : List Int) (fuel : Nat) : Option PanelGroups :=
  if n = nMax then some ⟨thick.1, thick.2, List.replicate thick.1.length 0⟩
  else
    match dropLoop gmax thick.1 fuel 0 d0 (pyInt (nDrops sym nMax n - (d0.sum : ℚ))) with
    | none => none
    | some drops =>
      some ⟨List.zipWith (· - ·) thick.1 drops,
        firstPlies sym nCov (List.zipWith (· - ·) thick.1 drops), drops⟩

/-- divide_panels.py 252-365 with the table of line 288 computed exactly. -/
def dividePanel (sym : Bool) (nMax nCov gmax : Int) (thick : List Int × List Int) (n : Int)
    (fuel : Nat) : Option PanelGroups :=
  dividePanelWith sym nMax nCov gmax thick n (uniformDrops (nDrops sym nMax n) thick.1) fuel

/-- divide_panels.py 369-413 `forbidden_ply_counts`. -/
def forbiddenPlyCounts (sym : Bool) (nCov nMin nMax gmin gmax : Int) : List Int :=
  ((List.range (nMax + 1 - nMin).toNat).map (fun (k : Nat) => nMin + (k : Int))).filter (fun n =>
    let nLam := n - 2 * nCov
    if sym then decide (ceilDiv (nLam / 2) gmax > nLam / 2 / gmin)
    else decide (ceilDiv nLam gmax > nLam / gmin))

/-- multipanels.py 233-242 `calc_ply_drops`: drops of every panel in group `step`. -/
def calcPlyDrops (thickSizes : List Int) (panels : List PanelGroups) (step : Nat) : Py (List Int) :=
  panels.mapM (fun p => do
    let a ← pyGet thickSizes step
    let b ← pyGet p.sizes step
    return a - b)

/-- divide_laminate_sym.py 14-133 (LAYLA): the middle ply is added to the last group. -/
def divideLaminateSym (n gmin gmax : Int) : Py (List Int × List Int) := do
  let sizes ← partitionSizes (n / 2) gmin gmax
  (if n % 2 = 1 then
    (if sizes.sum * 2 + 1 ≠ n then Except.error (.exc "Wrong partitioning!") else .ok ())
  else
    (if sizes.sum * 2 ≠ n then Except.error (.exc "Wrong partitioning!") else .ok ()))
  return (if n % 2 = 1 then sizes.modify (sizes.length - 1) (· + 1) else sizes,
    firstPlies true 0 sizes)

/-- divide_laminate_asym.py 14-133 (LAYLA). -/
def divideLaminateAsym (n gmin gmax : Int) : Py (List Int × List Int) := do
  let sizes ← partitionSizes n gmin gmax
  (if sizes.sum ≠ n then Except.error (.exc "Wrong partitioning!") else .ok ())
  return (sizes, firstPlies false 0 sizes)

end Bella
