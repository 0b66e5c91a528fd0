import Verif.Model.PdlTools
import Verif.Model.DividePanels
import Mathlib.Data.Nat.Choose.Basic
import Mathlib.Data.List.Sort
/-
Models of src/BELLA/pdl_group.py (`randomly_pdl_guide`), of `create_initial_pdl` and
`create_initial_pdls` (src/BELLA/pdl_ini.py) and of `calc_penalty_spacing`
(src/guidelines/ply_drop_spacing.py) with layouts before and after the group.

The random choices and the clock are inputs of the model: a `Draw` holds what `random.sample` returns
in one iteration, and each iteration comes with a flag telling whether the time limit is reached at its
end.
-/
namespace Bella

/-! ### penalty -/

/-- A row of an optional table; `np.zeros((n_panels, 0))` if there is no table. -/
def optRow (t : Option Table) (i : Nat) : Py (List Int) :=
  match t with
  | none => .ok []
  | some t => pyGet t i

/-- ply_drop_spacing.py 44-84 `calc_penalty_spacing` on the blending strip with the layouts of the groups
before and after; `boundaries` lists the pairs of panels and their weights. -/
def groupSpacing (pdlSpacing : Bool) (minDrop : Int) (boundaries : List (Nat × Nat × ℚ))
    (before after : Option Table) (pdl : Table) : Py ℚ :=
  if pdlSpacing = false then .ok 0
  else boundaries.foldlM (init := (0 : ℚ)) (fun acc b => do
    let r1 ← pyGet pdl b.1
    let r2 ← pyGet pdl b.2.1
    if r1.length = 1 ∨ r2.length = 1 then return acc
    let l1 := (← optRow before b.1) ++ r1 ++ (← optRow after b.1)
    let l2 := (← optRow before b.2.1) ++ r2 ++ (← optRow after b.2.1)
    let p ← calcPenaltySpacing1ss (spacingLayout l1 l2) minDrop
    return acc + b.2.2 * p)

/-! ### one random layout -/

/-- What `random.sample` returns in one iteration of `randomly_pdl_guide`: the plies dropped in the panels
with the most ply drops, and the successive values of `to_del`. -/
structure Draw where
  top : List Nat
  dels : List (List Nat)
  deriving DecidableEq, Repr

/-- pdl_group.py 134-146: the plies that may be dropped. -/
def dropPool (nMax : Nat) (covTop covBottom : Bool) : List Nat :=
  if covTop && covBottom then List.range' 1 (nMax - 1 - 1)
  else if covTop then List.range' 1 (nMax - 1)
  else if covBottom then List.range (nMax - 1)
  else List.range nMax

/-- pdl_group.py 151-158, one step: the plies dropped in the next thicker panels. -/
def undrop (cur : List Nat) (toDel : List Nat) : List Nat :=
  ((List.range cur.length).filter (fun i => !toDel.contains i)).map (fun i => cur.getD i 0)

/-- pdl_group.py 149-158: the loop over the numbers of ply drops, here in decreasing order; `random.sample`
raises `ValueError` if more values are asked for than there are. -/
def undropLoop : List Nat → Nat → List Nat → List (List Nat) → Py (List (List Nat))
  | cur, _, [], _ => .ok [cur]
  | cur, n, m :: ms, dels =>
    if cur.length < n - m then .error .valueError
    else do
      let rest ← undropLoop (undrop cur (dels.headD [])) m ms dels.tail
      return cur :: rest

/-- pdl_group.py 91: `np.unique(n_ply_drops)`. -/
def uniqueDrops (nDrops : List Nat) : List Nat := nDrops.dedup.insertionSort (· ≤ ·)

/-- pdl_group.py 128-158: the plies dropped for each number of ply drops, in increasing order. -/
def drawDrops (nMax : Nat) (covTop covBottom : Bool) (uniq : List Nat) (d : Draw) :
    Py (List (List Nat)) :=
  match uniq.reverse with
  | [] => .error .indexError
  | n :: ms =>
    if (dropPool nMax covTop covBottom).length < n then .error .valueError
    else do
      let l ← undropLoop d.top n ms d.dels
      return l.reverse

/-- The arguments of `randomly_pdl_guide` used to build a layout. -/
structure GroupArgs where
  nDrops : List Nat
  nMax : Nat
  pdlSpacing : Bool
  minDrop : Int
  sym : Bool
  boundaries : List (Nat × Nat × ℚ)
  before : Option Table := none
  after : Option Table := none
  lastGroup : Bool := false
  covTop : Bool := false
  covBottom : Bool := false
  hasMiddle : Bool := false
  middleIdx : List Int := []

/-- pdl_group.py 170-176: the column of the middle ply is added; `reshape` raises for a wrong size. -/
def addMiddle (middleIdx : List Int) (t : Table) : Py Table :=
  let middle := middleIdx.dropLast.map (fun x => if x ≠ 0 then (-1 : Int) else 0)
  if middle.length ≠ t.length then .error .valueError
  else .ok (List.zipWith (fun row m => row ++ [m]) t middle)

/-- pdl_group.py 189-194: for the last group of symmetric laminates, the group placed after is its mirror
image. -/
def mirrorAfter (a : GroupArgs) (t : Table) : Option Table :=
  if a.lastGroup && a.sym then
    some (t.map (fun row => (if a.hasMiddle then row.dropLast else row).reverse))
  else a.after

/-- pdl_group.py 127-219: one random layout and its penalty. -/
def drawPdl (a : GroupArgs) (d : Draw) : Py (Table × ℚ) := do
  let uniq := uniqueDrops a.nDrops
  let drops ← drawDrops a.nMax a.covTop a.covBottom uniq d
  let t ← formatPlyDrops drops a.nMax
  let t ← if a.lastGroup && a.hasMiddle then addMiddle a.middleIdx t else .ok t
  let t ← plyDropsAtEachBoundaries t (uniq.zip (List.range uniq.length)) a.nDrops
  let p ← groupSpacing a.pdlSpacing a.minDrop a.boundaries a.before (mirrorAfter a t) t
  return (formatPlyDrops2 t, p)

/-! ### the search, common to `randomly_pdl_guide` and `create_initial_pdls` -/

/-- The layouts stored: without and with penalty. -/
structure Found where
  perfect : List Table
  imperfect : List (Table × ℚ)

/-- `np.argmin`: position of the first smallest value. -/
def argminIdx (l : List (Table × ℚ)) : Nat :=
  l.findIdx (fun x => l.all (fun y => decide (x.2 ≤ y.2)))

/-- pdl_group.py 224-267 and pdl_ini.py 137-182: storage of a new layout.  Two layouts are duplicates if
`np.allclose`, which for tables of (small) integers means equal.  Note line 254 (pdl_ini.py 167):
`np.argmin`, the layout with the smallest penalty is replaced. -/
def store (nPdl : Nat) (f : Found) (t : Table) (p : ℚ) : Found :=
  if p = 0 then
    if f.perfect.contains t then f else { f with perfect := f.perfect ++ [t] }
  else if nPdl ≤ f.imperfect.length then
    if f.imperfect.any (fun x => decide (p < x.2)) then
      if f.imperfect.any (fun x => x.1 == t) then f
      else { f with imperfect := f.imperfect.set (argminIdx f.imperfect) (t, p) }
    else f
  else if f.imperfect.any (fun x => x.1 == t) then f
  else { f with imperfect := f.imperfect ++ [(t, p)] }

/-- pdl_group.py 124-267 and pdl_ini.py 101-182: the `while` loop, along a schedule of random draws; each draw
comes with a flag telling whether the time limit is reached at the end of the iteration.  `none`: the
schedule ends before the loop. -/
def searchPdls {δ : Type} (gen : δ → Py (Table × ℚ)) (nPdl : Nat) :
    List (δ × Bool) → Bool → Found → Py (Option (Found × Bool))
  | sched, late, f =>
    if f.perfect.length < nPdl ∧ late = false then
      match sched with
      | [] => .ok none
      | (d, late') :: rest => do
        let (t, p) ← gen d
        searchPdls gen nPdl rest late' (store nPdl f t p)
    else .ok (some (f, late))

/-- pdl_group.py 289-293 and pdl_ini.py 198-201: `k` layouts with penalty are added to the others. -/
def addImperfect (nPdl : Nat) : Nat → List (Table × ℚ) → List Table → Py (List Table)
  | 0, _, perfect => .ok perfect
  | k + 1, imperfect, perfect =>
    match imperfect[argminIdx imperfect]? with
    | none => .error .valueError
    | some (t, _) =>
      if nPdl ≤ perfect.length then .error .indexError
      else addImperfect nPdl k (imperfect.set (argminIdx imperfect) (t, 10000000)) (perfect ++ [t])

/-- pdl_group.py 124-297 and pdl_ini.py 101-213: the search and its result; `nAsked` layouts are asked for,
`nPdl` is the size of the tables.  `late0` tells whether the time limit is zero. -/
def collectPdls {δ : Type} (gen : δ → Py (Table × ℚ)) (nPdl nAsked : Nat) (late0 : Bool)
    (sched : List (δ × Bool)) : Py (Option (List Table)) := do
  let r ← searchPdls gen nPdl sched late0 ⟨[], []⟩
  match r with
  | none => return none
  | some (f, late) =>
    if late then
      if f.imperfect.length + f.perfect.length = 0 then
        .error (.exc "No conform ply drop layout can be generated.")
      else do
        let l ← addImperfect nPdl (nAsked - f.perfect.length) f.imperfect f.perfect
        return some l
    else return some f.perfect

/-- pdl_group.py 100-105: number of layouts, limited by the number of combinations of ply drops. -/
def nPdlOf (a : GroupArgs) (nAsked : Nat) : Nat :=
  min ((uniqueDrops a.nDrops).map (fun (d : Nat) => a.nMax.choose d)).prod nAsked

/-- pdl_group.py 43-297 `randomly_pdl_guide`. -/
def randomlyPdlGuide (a : GroupArgs) (nAsked : Nat) (late0 : Bool) (sched : List (Draw × Bool)) :
    Py (Option (List Table)) :=
  collectPdls (drawPdl a) (nPdlOf a nAsked) nAsked late0 sched

/-! ### layouts of complete laminates -/

/-- The structure and the settings used by `create_initial_pdl`; `sizes` and `drops` are the numbers of plies
of the groups of the thickest panel, and for each group the numbers of ply drops of the panels
(`calc_ply_drops`). -/
structure StripData where
  nPanels : Nat
  nPliesMax : Nat
  hasMiddle : Bool
  middleIdx : List Int
  sizes : List Nat
  drops : List (List Nat)
  boundaries : List (Nat × Nat × ℚ)
  sym : Bool
  nCovering : Nat
  pdlSpacing : Bool
  minDrop : Int
  late0 : Bool

/-- pdl_ini.py 225-231, 262-273: the covering plies. -/
def coveringGroup (s : StripData) : Option Table :=
  if s.nCovering = 1 then some (List.replicate s.nPanels [0])
  else if s.nCovering = 2 then some (List.replicate s.nPanels [0, 1])
  else none

/-- `my_pdl[0]` (pdl_ini.py 253, 303-305), for a search that ends. -/
def firstLayout (r : Py (Option (List Table))) : Py (Option Table) := do
  match ← r with
  | none => return none
  | some [] => .error .indexError
  | some (t :: _) => return some t

/-- pdl_ini.py 233-253: the groups of symmetric laminates one after the other; `prev` is the layout of the
previous group. -/
def symGroups (s : StripData) : Nat → Option Table → List (List (Draw × Bool)) →
    Py (Option (List (Option Table)))
  | _, _, [] => .ok (some [])
  | g, prev, sched :: rest => do
    let n ← pyGet s.sizes g
    let d ← pyGet s.drops g
    let r ← firstLayout (randomlyPdlGuide
      {
        nDrops := d, nMax := n, pdlSpacing := s.pdlSpacing, minDrop := s.minDrop, sym := s.sym,
        boundaries := s.boundaries, before := prev, lastGroup := g + 1 == s.sizes.length,
        hasMiddle := s.hasMiddle, middleIdx := s.middleIdx } 1 s.late0 sched)
    match r with
    | none => return none
    | some t =>
      match ← symGroups s (g + 1) (some t) rest with
      | none => return none
      | some l => return some (some t :: l)

/-- pdl_ini.py 275-305: the groups of asymmetric laminates, alternately from the two faces; `prev` and
`prev2` are the layouts of the last group on the face of the next group and on the other face. -/
def asymGroups (s : StripData) : Nat → Option Table → Option Table → List (List (Draw × Bool)) →
    Py (Option (List (Option Table)))
  | _, _, _, [] => .ok (some [])
  | g, prev, prev2, sched :: rest => do
    let n ← pyGet s.sizes g
    let d ← pyGet s.drops g
    let r ← firstLayout (randomlyPdlGuide
      {
        nDrops := d, nMax := n, pdlSpacing := s.pdlSpacing, minDrop := s.minDrop, sym := s.sym,
        boundaries := s.boundaries, before := if g % 2 = 0 then prev else none,
        after := if g % 2 = 0 then none else prev, lastGroup := g + 1 == s.sizes.length } 1 s.late0 sched)
    match r with
    | none => return none
    | some t =>
      match ← asymGroups s (g + 1) prev2 (some t) rest with
      | none => return none
      | some l => return some (some t :: l)

/-- pdl_ini.py 255-258: `pdl_before_cummul` (the groups of the other face are not defined). -/
def onlyParity (par : Nat) : Nat → List (Option Table) → List (Option Table)
  | _, [] => []
  | k, g :: gs => (if k % 2 = par then g else none) :: onlyParity par (k + 1) gs

/-- pdl_ini.py 215-308 `create_initial_pdl`; `sched` holds the random draws of each group.  (`none`: a
schedule of draws ends before the search of its group.) -/
def createInitialPdl (s : StripData) (sched : List (List (Draw × Bool))) : Py (Option Table) := do
  if s.sym then
    match ← symGroups s 0 (coveringGroup s) (sched.take s.sizes.length) with
    | none => return none
    | some l =>
      let t ← globalPdl s.nPanels s.nPliesMax s.hasMiddle true (coveringGroup s :: l) none
      return some t
  else
    match ← asymGroups s 0 (coveringGroup s) (coveringGroup s) (sched.take s.sizes.length) with
    | none => return none
    | some l =>
      let groups := coveringGroup s :: coveringGroup s :: l
      let t ← globalPdl s.nPanels s.nPliesMax s.hasMiddle false (onlyParity 0 0 groups)
        (some (onlyParity 1 0 groups))
      return some t

/-- pdl_ini.py 83-213 `create_initial_pdls`, for schedules along which each layout is completed. -/
def createInitialPdls (s : StripData) (nIni : Nat) (late0 : Bool)
    (sched : List (List (List (Draw × Bool)) × Bool)) : Py (Option (List Table)) :=
  collectPdls (fun d => do
    match ← createInitialPdl s d with
    | none => .error (.exc "schedule too short")
    | some t => do
      let p ← groupSpacing s.pdlSpacing s.minDrop s.boundaries none none t
      return (t, p)) nIni nIni late0 sched

end Bella
