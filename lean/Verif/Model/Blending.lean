import Verif.Model.Constraints
/-
Models of src/BELLA/multipanels.py (panel boundaries), src/BELLA/reduced_multipanels.py and
src/BELLA/format_pdl.py
-/
namespace Bella

/-- Python indexing `l[i]` with `i ≥ 0`. -/
def pyGet {α : Type} (l : List α) (i : Nat) : Py α :=
  match l[i]? with
  | some a => .ok a
  | none => .error .indexError

/-- Python dictionary look-up `d[k]`. -/
def dictGet {κ α : Type} [BEq κ] (d : List (κ × α)) (k : κ) : Py α :=
  match d.lookup k with
  | some a => .ok a
  | none => .error .keyError

/-- Python dictionary assignment `d[k] = v` (keys are unique). -/
def dictSet {κ α : Type} [BEq κ] : List (κ × α) → κ → α → List (κ × α)
  | [], k, v => [(k, v)]
  | (k', v') :: d, k, v => if k' == k then (k', v) :: d else (k', v') :: dictSet d k v

/-! ### multipanels.py 104-210: panel boundaries -/

/-- A panel as far as the boundaries are concerned (panels.py): its ID and those of its neighbours. -/
structure PanelIds where
  ID : Int
  neighbours : List Int
  deriving DecidableEq, Repr

/-- multipanels.py 111-117: `dict_ID_to_indices`, raising if two panels have the same ID. -/
def idDict (panels : List PanelIds) : Py (List (Int × Nat)) :=
  if (panels.map (·.ID)).dedup.length ≠ panels.length then
    .error (.exc "Several panels with the same index!")
  else .ok ((panels.map (·.ID)).zipIdx)

/-- lexicographic order on index pairs, as used by `np.unique(…, axis=0)` -/
def lexLE (a b : Nat × Nat) : Bool := a.1 < b.1 || (a.1 == b.1 && a.2 ≤ b.2)

/-- `np.unique(rows, axis=0)` for rows of two indices. -/
def npUniqueRows (l : List (Nat × Nat)) : List (Nat × Nat) :=
  l.dedup.insertionSort (fun a b => lexLE a b = true)

/-- `np.sort([i, j])`. -/
def sort2 (i j : Nat) : Nat × Nat := if i ≤ j then (i, j) else (j, i)

/-- multipanels.py 121-131: both orientations of every boundary, without repetition. -/
def directedBoundaries (panels : List PanelIds) (dict : List (Int × Nat)) :
    Py (List (Nat × Nat)) := do
  let rows ← (panels.zipIdx).mapM (fun (p, i) => do
    let ns ← p.neighbours.mapM (fun n => dictGet dict n)
    return ns.flatMap (fun e => [sort2 i e, (sort2 i e).swap]))
  return npUniqueRows rows.flatten

/-- multipanels.py 140-143: the loop over the boundaries adding the unseen neighbours of the
current node. -/
def addNeighbours (visited : List Nat) (current : Nat) : List (Nat × Nat) → List Nat → List Nat
  | [], avail => avail
  | e :: es, avail =>
    if e.1 = current ∧ e.2 ∉ visited ∧ e.2 ∉ avail then
      addNeighbours visited current es (avail ++ [e.2])
    else addNeighbours visited current es avail

/-- multipanels.py 137-143: graph search.  `set.pop` takes an arbitrary element of the set: `pick`
chooses it.  `fuel` is the remaining number of iterations allowed by
`len(visited_nodes) < self.n_panels`. -/
def visitLoop (pick : List Nat → Nat) (bs : List (Nat × Nat)) :
    Nat → List Nat → List Nat → List Nat
  | 0, visited, _ => visited
  | fuel + 1, visited, avail =>
    if avail = [] then visited
    else
      let current := pick avail
      let visited' := visited ++ [current]
      visitLoop pick bs fuel visited' (addNeighbours visited' current bs (avail.erase current))

/-- multipanels.py 135-147: are all the panels visited from panel 0? -/
def allConnected (pick : List Nat → Nat) (n : Nat) (bs : List (Nat × Nat)) : Bool :=
  (visitLoop pick bs n [] [0]).length == n

/-- multipanels.py 184-194: a weight that is missing *or zero* is looked up with the reversed key.
The result tells whether the reversed key was used. -/
def weightOf (w : List ((Int × Int) × ℚ)) (id1 id2 : Int) : Py (Bool × ℚ) :=
  let x := (w.lookup (min id1 id2, max id1 id2)).getD 0
  let y := (w.lookup (max id1 id2, min id1 id2)).getD 0
  if x ≠ 0 then .ok (false, x)
  else if y ≠ 0 then .ok (true, y)
  else .error (.exc "Missing boundary weightings.")

/-- multipanels.py 157-160, 178-183 and 201-206: indices of the two panels of a boundary, through
their IDs, in increasing order. -/
def boundaryKey (panels : List PanelIds) (dict : List (Int × Nat)) (b : Nat × Nat) :
    Py (Nat × Nat) := do
  let i1 ← dictGet dict (panels.getD b.1 ⟨0, []⟩).ID
  let i2 ← dictGet dict (panels.getD b.2 ⟨0, []⟩).ID
  return sort2 i1 i2

/-- multipanels.py 163-208: the boundary weights in terms of panel indices.  A weight found with the
reversed key is stored under the reversed key. -/
def mkBoundaryWeights (panels : List PanelIds) (dict : List (Int × Nat))
    (boundaries : List (Nat × Nat)) (weights : Option (List ((Int × Int) × ℚ))) :
    Py (List ((Nat × Nat) × ℚ)) :=
  match weights with
  | none => boundaries.foldlM (init := []) (fun d b => do
      let m ← boundaryKey panels dict b
      return dictSet d m 1)
  | some w =>
    if w.any (fun p => decide (p.2 < 0)) then
      .error (.exc "The boundary weightings should be positive.")
    else if w.length < boundaries.length then
      .error (.exc "Insufficient number of boundary weightings.")
    else boundaries.foldlM (init := []) (fun d b => do
      let m ← boundaryKey panels dict b
      let x ← weightOf w (panels.getD b.1 ⟨0, []⟩).ID (panels.getD b.2 ⟨0, []⟩).ID
      return dictSet d (if x.1 then m.swap else m) x.2)

/-- multipanels.py 104-210 `calc_panel_boundary_dict`: boundaries (in increasing order of indices)
and their weights. -/
def calcPanelBoundaryDict (pick : List Nat → Nat) (panels : List PanelIds)
    (weights : Option (List ((Int × Int) × ℚ))) :
    Py (List (Nat × Nat) × List ((Nat × Nat) × ℚ)) := do
  let dict ← idDict panels
  let dirs ← directedBoundaries panels dict
  (if allConnected pick panels.length dirs then .ok ()
    else .error (.exc "The panels of the multipanel-component are not all connected!"))
  let boundaries := npUniqueRows (dirs.map (fun b => sort2 b.1 b.2))
  let bw ← mkBoundaryWeights panels dict boundaries weights
  return (boundaries, bw)

/-! ### reduced_multipanels.py -/

/-- `np.unique` on ply counts. -/
def npUniqueNat (l : List Nat) : List Nat := l.dedup.insertionSort (· ≤ ·)

/-- reduced_multipanels.py 52-59: once a ply count is odd, all larger ones must be. -/
def middlePlyLoop : List Nat → Bool → Py Unit
  | [], _ => .ok ()
  | n :: ns, hasMiddle =>
    if hasMiddle = true ∧ n % 2 = 0 then
      .error (.exc "The panel ply counts are not compatible with guide-based blending (middle ply)")
    else middlePlyLoop ns (if n % 2 ≠ 0 then true else hasMiddle)

/-- reduced_multipanels.py 86-95: the `while True` search. -/
def refLoop (n : Int) : List Nat → Nat → Py Nat
  | n1 :: n2 :: rest, index =>
    if n > n1 ∧ n ≤ n2 then .ok (index + 1) else refLoop n (n2 :: rest) (index + 1)
  | _, _ => .error .indexError

/-- reduced_multipanels.py 78-95: index of the reference panel (lines 78-80 are overwritten by one
of the three branches of lines 81-95). -/
def calcIndRef (u : List Nat) (n : Int) : Py Nat := do
  let first ← pyGet u 0
  let last ← pyGet u (u.length - 1)
  if n ≤ first then return 0
  else if n ≥ last then return u.length - 1
  else refLoop n u 0

/-- reduced_multipanels.py 120-128: boundaries of the blending strip. -/
def reduceBoundaries (guide : List Nat) (bs : List (Nat × Nat)) : Py (List (Nat × Nat)) :=
  bs.foldlM (init := []) (fun acc b => do
    let e1 ← pyGet guide b.1
    let e2 ← pyGet guide b.2
    let loc := sort2 e1 e2
    if loc ∉ acc ∧ e1 ≠ e2 then return acc ++ [loc] else return acc)

/-- reduced_multipanels.py 131-146: boundary weights of the blending strip. -/
def reduceBoundaryWeights (guide : List Nat) (bs : List (Nat × Nat))
    (bw : List ((Nat × Nat) × ℚ)) : Py (List ((Nat × Nat) × ℚ)) :=
  bs.foldlM (init := []) (fun d b => do
    let weight ← dictGet bw (b.1, b.2)
    let e1 ← pyGet guide b.1
    let e2 ← pyGet guide b.2
    let k := sort2 e1 e2
    if k.1 ≠ k.2 then
      match d.lookup k with
      | some w => return dictSet d k (w + weight)
      | none => return dictSet d k weight
    else return d)

/-- One row of the tables of reduced_multipanels.py 226-358 (`calc_parameters`). -/
structure Step where
  indPanel : Nat
  nBefore : Int
  nAfter : Int
  newBoundary : Bool
  nDesigned : Nat
  deriving DecidableEq, Repr

/-- reduced_multipanels.py 259-284: the rows after the first one, thick-to-thin. `nPanelAfter` is the
entry of `n_plies_panel_after_tab`; `ind_panel - 1` wraps around at 0 in numpy, here it stays 0
(shown unreachable for compatible ply counts). -/
def thinSteps (u : List Nat) (k : Int) : Nat → Step → List Step
  | 0, _ => []
  | m + 1, s =>
    let after := s.nAfter - k
    let s' : Step :=
      if after < (u.getD s.indPanel 0 : Nat) then
        ⟨s.indPanel - 1, s.nBefore - k, after, true, s.nDesigned + 1⟩
      else ⟨s.indPanel, s.nBefore - k, after, false, s.nDesigned⟩
    s' :: thinSteps u k m s'

/-- reduced_multipanels.py 226-291: the thick-to-thin tables (empty when there is no step). -/
def thinTable (u : List Nat) (sym : Bool) (indRef : Nat) : List Step :=
  let nRef := u.getD indRef 0
  let k : Nat := if sym then 2 else 1
  let nSteps := (nRef - u.getD 0 0) / k
  match nSteps with
  | 0 => []
  | m + 1 =>
    let s0 : Step := ⟨indRef - 1, nRef, (nRef : Int) - k, true, 0⟩
    s0 :: thinSteps u k m s0

/-- reduced_multipanels.py 325-350: the rows after the first one, thin-to-thick. -/
def thickSteps (u : List Nat) (k : Int) : Nat → Step → List Step
  | 0, _ => []
  | m + 1, s =>
    let after := s.nAfter + k
    let s' : Step :=
      if after > (u.getD s.indPanel 0 : Nat) then
        ⟨s.indPanel + 1, s.nBefore + k, after, true, s.nDesigned + 1⟩
      else ⟨s.indPanel, s.nBefore + k, after, false, s.nDesigned⟩
    s' :: thickSteps u k m s'

/-- reduced_multipanels.py 293-358: the thin-to-thick tables. -/
def thickTable (u : List Nat) (sym : Bool) (indRef : Nat) : List Step :=
  let nRef := u.getD indRef 0
  let k : Nat := if sym then 2 else 1
  let nSteps := (u.getD (u.length - 1) 0 - nRef) / k
  match nSteps with
  | 0 => []
  | m + 1 =>
    let s0 : Step := ⟨indRef + 1, nRef, (nRef : Int) + k, true, 0⟩
    s0 :: thickSteps u k m s0

/-- reduced_multipanels.py 160-163: `actual_panel_weightings`; note that the loop variable is an
index of the *blending strip*, used in `ind_panels_guide` that is indexed by structure panels. -/
def actualPanelWeightings (guide : List Nat) (weights : List ℚ) : List ℚ :=
  (weights.zipIdx).foldl (fun acc (w, i) =>
    let j := guide.getD i 0
    acc.set j (acc.getD j 0 + w)) (List.replicate weights.length 0)

/-- The attributes of `ReducedMultiPanel` that are modelled, reduced_multipanels.py 47-113. -/
structure Reduced where
  nPlies : List Nat
  indForReduc : List Nat
  indPanelsGuide : List Nat
  indRef : Nat
  boundaries : List (Nat × Nat)
  boundaryWeights : List ((Nat × Nat) × ℚ)
  thin : List Step
  thick : List Step
  deriving DecidableEq, Repr

/-- reduced_multipanels.py 15-113 `ReducedMultiPanel.__init__` (ply counts, boundaries and boundary
weights of the structure are the inputs). -/
def mkReduced (plies : List Nat) (sym : Bool) (nRef : Int) (bs : List (Nat × Nat))
    (bw : List ((Nat × Nat) × ℚ)) : Py Reduced := do
  let u := npUniqueNat plies
  let indFor := u.map (fun n => plies.idxOf n)
  let guide := plies.map (fun n => u.idxOf n)
  (if sym then middlePlyLoop u false else .ok ())
  let r ← calcIndRef u nRef
  let rb ← reduceBoundaries guide bs
  let rw ← reduceBoundaryWeights guide bs bw
  return ⟨u, indFor, guide, r, rb, rw, thinTable u sym r, thickTable u sym r⟩

/-! ### format_pdl.py -/

/-- format_pdl.py 193-208 `reduce_for_guide_based_blending`. -/
def reduceData {α : Type} (r : Reduced) (data : List α) : Py (List α) :=
  (List.range r.nPlies.length).mapM (fun ind => do
    let i ← pyGet r.indForReduc ind
    pyGet data i)

/-- format_pdl.py 211-225 `extend_after_guide_based_blending` (`nPanels` panels). -/
def extendData {α : Type} (r : Reduced) (nPanels : Nat) (data : List α) : Py (List α) :=
  (List.range nPanels).mapM (fun ind => do
    let i ← pyGet r.indPanelsGuide ind
    pyGet data i)

/-- format_pdl.py 141-152 `convert_sst_to_ss`, the row of one panel. -/
def sstRowToSs : Stack → Stack
  | [] => []
  | a :: t => if a ≠ -1 then a :: sstRowToSs t else sstRowToSs t

/-- format_pdl.py 141-152 `convert_sst_to_ss`. -/
def convertSstToSs (sst : List Stack) : List Stack := sst.map sstRowToSs

/-- format_pdl.py 155-165 `convert_ss_guide_to_sst`, on one row of `pdl`: columns beyond the guide
stay at -1.  (The code fills the table column by column, each cell at most once.) -/
def guideRow : Stack → Stack → Stack
  | _, [] => []
  | [], _ :: p => -1 :: guideRow [] p
  | g :: gs, d :: p => (if d ≠ -1 then g else -1) :: guideRow gs p

/-- format_pdl.py 155-165 `convert_ss_guide_to_sst`: `pdl[:, ind]` raises if the guide is longer than
the layout; `w` is the number of columns of `pdl`. -/
def convertSsGuideToSst (guide : Stack) (pdl : List Stack) (w : Nat) : Py (List Stack) :=
  if guide.length > w then .error .indexError else .ok (pdl.map (guideRow guide))

/-- format_pdl.py 185-190 `convert_ss_to_sst`: only the last (thickest) laminate is used. -/
def convertSsToSst (ss : List Stack) (pdl : List Stack) (w : Nat) : Py (List Stack) :=
  match ss.getLast? with
  | none => .error .indexError
  | some g => convertSsGuideToSst g pdl w

/-- format_pdl.py 175-181: the column loop of `convert_ss_ref_to_reduced_sst`, on the list of
columns; `k` is `ind_in_ss_ref`. -/
def refColumns (ssRef : Stack) (indRef : Nat) : List Stack → Nat → Py (List Stack)
  | [], _ => .ok []
  | col :: cols, k =>
    if col.getD indRef (-1) ≠ -1 then do
      let a ← pyGet ssRef k
      let rest ← refColumns ssRef indRef cols (k + 1)
      return (col.map (fun x => if x ≠ -1 then a else x)) :: rest
    else do
      let rest ← refColumns ssRef indRef cols k
      return col :: rest

/-- Column `j` of a table. -/
def column (sst : List Stack) (j : Nat) : Stack := sst.map (fun r => r.getD j (-1))

/-- format_pdl.py 167-182 `convert_ss_ref_to_reduced_sst`; the result is the list of the columns of
the table. -/
def convertSsRefToReducedSst (ssRef : Stack) (indRef : Nat) (pdl : List Stack)
    (ssBefore : List Stack) (w : Nat) : Py (List Stack) := do
  let sst ← convertSsToSst ssBefore pdl w
  refColumns ssRef indRef ((List.range w).map (column sst)) 0

/-- format_pdl.py 64-71: the loop of `pos_in_ss_ref_to_pos_in_sst` over the layout; `ind` is
`ind_pdl_ply`, `counter` the number of plies met, `pos` the positions still to find. -/
def posRefLoop : Stack → Nat → Nat → List Nat → List Nat
  | [], _, _, _ => []
  | _, _, _, [] => []
  | d :: pdl, ind, counter, q :: pos =>
    if d ≠ -1 then
      if counter + 1 = q then (ind + 1) :: posRefLoop pdl (ind + 1) (counter + 1) pos
      else posRefLoop pdl (ind + 1) (counter + 1) (q :: pos)
    else posRefLoop pdl (ind + 1) counter (q :: pos)

/-- `np.argsort`: the indices of the entries in increasing order of the entries (stable here; the
order of equal entries is irrelevant under the hypotheses used). -/
def argsortNat (l : List Nat) : List Nat :=
  (List.range l.length).insertionSort (fun i j => l.getD i 0 ≤ l.getD j 0)

/-- format_pdl.py 45-75 `pos_in_ss_ref_to_pos_in_sst`. -/
def posInSsRefToPosInSst (posRef : List Nat) (pdlRef : Stack) : Py (List Nat) :=
  if posRef.length = 0 then .ok []
  else
    let indSort := argsortNat posRef
    let sorted := indSort.map (fun i => posRef.getD i 0)
    let posSst := posRefLoop pdlRef 0 0 sorted
    -- `np.where(ind_sort == ind)[0][0]` and the look-up
    (List.range posSst.length).mapM (fun ind => pyGet posSst (indSort.idxOf ind))

/-- format_pdl.py 96-110: the loop of `pos_in_sst_to_pos_in_panel`; `ind` is `ind_ply`, `c` is
`counter_ply_panel`, `pos` the rest of `pos_sst` (empty: `pos_sst[counter_pos_sst]` out of range). -/
def posPanelLoop (pdl : Stack) : Nat → Nat → Nat → List Nat → Py (List Nat)
  | 0, _, _, _ => .ok []
  | _ + 1, _, _, [] => .error .indexError
  | m + 1, ind, c, q :: pos => do
    let d ← pyGet pdl ind
    if q = ind + 1 then
      if d ≠ -1 then do
        let rest ← posPanelLoop pdl m (ind + 1) (c + 1) pos
        return (c + 1) :: rest
      else posPanelLoop pdl m (ind + 1) c pos
    else
      posPanelLoop pdl m (ind + 1) (if d ≠ -1 then c + 1 else c) (q :: pos)

/-- format_pdl.py 78-110 `pos_in_sst_to_pos_in_panel`. -/
def posInSstToPosInPanel (posSst : List Nat) (pdl : Stack) : Py (List Nat) :=
  match posSst.getLast? with
  | none => .ok []
  | some last => posPanelLoop pdl last 0 0 posSst

/-- format_pdl.py 113-139 `pos_in_sst_to_pos_in_panel_2` (positions are at least 1). -/
def posInSstToPosInPanel2 (posSst : List Nat) (pdl : Stack) : Py (List Nat) :=
  posSst.mapM (fun p => do
    let d ← pyGet pdl (p - 1)
    if d = -1 then return 10 ^ 10
    else return ((pdl.take p).filter (fun x => x != -1)).length)

end Bella
