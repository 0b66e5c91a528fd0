import Verif.Model.Blending
import Verif.Model.Guidelines
/-
Models of src/BELLA/pdl_tools.py and of the functions of src/BELLA/pdl_ini.py reading and checking
ply drop layouts.
-/
namespace Bella

/-- A layout or table: one row per panel. -/
abbrev Table := List (List Int)

/-- pdl_tools.py 107-123 `format_ply_drops`, the loop over the drops of one panel.  An index out of
range raises (simplification: indices are natural numbers, so no wrap-around of negative ones). -/
def formatDropsRow (n : Nat) : List Nat → List Int → Py (List Int)
  | [], row => .ok row
  | d :: ds, row => if d < n then formatDropsRow n ds (row.set d (-1)) else .error .indexError

/-- pdl_tools.py 107-123 `format_ply_drops`. -/
def formatPlyDrops (drops : List (List Nat)) (n : Nat) : Py Table :=
  drops.mapM (fun ds => formatDropsRow n ds ((List.range n).map (fun (i : Nat) => (i : Int))))

/-- pdl_tools.py 126-144 `format_ply_drops2`, one row; `k` is `index_plyLocal`. -/
def renumber : Int → List Int → List Int
  | _, [] => []
  | k, x :: xs => if x ≠ -1 then k :: renumber (k + 1) xs else x :: renumber k xs

/-- pdl_tools.py 126-144 `format_ply_drops2`. -/
def formatPlyDrops2 (ss : Table) : Table := ss.map (renumber 0)

/-- pdl_tools.py 37-49 `ply_drops_at_each_boundaries`; `indices_unique` is the dictionary giving the
position of a number of ply drops in `n_ply_drops_unique` (built in pdl_group.py 96-98). -/
def plyDropsAtEachBoundaries (newPdl : Table) (indicesUnique : List (Nat × Nat))
    (nPlyDrops : List Nat) : Py Table :=
  nPlyDrops.mapM (fun d => do
    let i ← dictGet indicesUnique d
    pyGet newPdl i)

/-- pdl_tools.py 84-98: the two layouts of a boundary, without the plies covering none of the two
panels (simplification: the two rows have the same length, as the rows of a numpy table). -/
def ruleLayouts (l1 l2 : Stack) : Stack × Stack :=
  let kept := (l1.zip l2).filter (fun p => decide (p.1 ≥ 0) || p.1 != p.2)
  (kept.map Prod.fst, kept.map Prod.snd)

/-- pdl_tools.py 83-104: the loop over the boundaries for one layout (`true` = kept). -/
def ruleLoop (minDrop : Int) (before after pdl : Table) : List (Nat × Nat) → Py Bool
  | [] => .ok true
  | (i, j) :: bs => do
    let l1 := (← pyGet before i) ++ (← pyGet pdl i) ++ (← pyGet after i)
    let l2 := (← pyGet before j) ++ (← pyGet pdl j) ++ (← pyGet after j)
    let p1 ← calcPenaltySpacing1ss (ruleLayouts l1 l2).1 minDrop
    let p2 ← calcPenaltySpacing1ss (ruleLayouts l1 l2).2 minDrop
    if p1 + p2 > 0 then return false else ruleLoop minDrop before after pdl bs

/-- pdl_tools.py 52-105 `ply_drops_rules` with `pdl_spacing=True`; without layouts before or after,
one continuous ply is assumed there (lines 74-77). -/
def plyDropsRules (pdls : List Table) (minDrop : Int) (boundaries : List (Nat × Nat))
    (before after : Option Table) : Py (List Table) := do
  let flags ← pdls.mapM (fun pdl =>
    ruleLoop minDrop (before.getD (List.replicate pdl.length [1]))
      (after.getD (List.replicate pdl.length [1])) pdl boundaries)
  return ((pdls.zip flags).filter (·.2)).map Prod.fst

/-! ### global_pdl_from_local_pdl -/

/-- pdl_tools.py 170-181: -1 for ply drops and 1 for plies. -/
def marks (row : List Int) : List Int := row.map (fun x => if x = -1 then -1 else 1)

/-- pdl_tools.py 169-181: the rows of one panel in the groups present, one after the other. -/
def symHalf (ip : Nat) : List (Option Table) → Py (List Int)
  | [] => .ok []
  | none :: gs => symHalf ip gs
  | some g :: gs => do
    let row ← pyGet g ip
    let rest ← symHalf ip gs
    return marks row ++ rest

/-- pdl_tools.py 206-219, 222-235: the row of one panel in a group, nothing if there is none. -/
def groupMarks (ip : Nat) : Option Table → Py (List Int)
  | some t => do let row ← pyGet t ip; pure (marks row)
  | none => .ok []

/-- pdl_tools.py 202-235, one iteration: what the group `k` adds to the two parts. -/
def asymHere (ip : Nat) (after : Option (List (Option Table))) (k : Nat) (g : Option Table) :
    Py (List Int × List Int) :=
  if k % 2 = 0 then do
    let r ← groupMarks ip g
    pure (r, [])
  else
    match after with
    | none => .ok ([], [])
    | some as => do
      let a ← pyGet as k
      let r ← groupMarks ip a
      pure ([], r)

/-- pdl_tools.py 202-235: for an asymmetric laminate, groups of even index in `before` go to the
first part, groups of odd index in `after` to the second part, each in front of the previous ones.
`k` is `ind_local_pdl`. -/
def asymParts (ip : Nat) (after : Option (List (Option Table))) :
    Nat → List (Option Table) → Py (List Int × List Int)
  | _, [] => .ok ([], [])
  | k, g :: gs => do
    let here ← asymHere ip after k g
    let rest ← asymParts ip after (k + 1) gs
    return (here.1 ++ rest.1, rest.2 ++ here.2)

/-- pdl_tools.py 241-245 and 249-253: the value 1 of the kept plies becomes their position.
`k` is `to_add`. -/
def numberRow : Int → List Int → List Int
  | _, [] => []
  | k, x :: xs => if x ≠ -1 then (x + k) :: numberRow (k + 1) xs else x :: numberRow k xs

/-- pdl_tools.py 246-247: the second half of the columns becomes the mirror of the first half. -/
def mirrorRow (row : List Int) : List Int :=
  row.take ((row.length + 1) / 2) ++ (row.take (row.length / 2)).reverse

/-- pdl_tools.py 192-196: the middle column is listed once. -/
def dropMiddle (hasMiddle : Bool) (row : List Int) : List Int :=
  if hasMiddle then row.eraseIdx (row.length / 2) else row

/-- pdl_tools.py 147-258 `global_pdl_from_local_pdl`.  `np.array` of rows of different sizes is an
error (the exception depends on the version of numpy). -/
def globalPdl (nPanels nPliesMax : Nat) (hasMiddle sym : Bool) (before : List (Option Table))
    (after : Option (List (Option Table))) : Py Table := do
  let rows ← (List.range nPanels).mapM (fun ip =>
    if sym then do
      let h ← symHalf ip before
      pure (mirrorRow (numberRow 0 (dropMiddle hasMiddle (h ++ h.reverse))))
    else do
      let p ← asymParts ip after 0 before
      pure (numberRow 0 (p.1 ++ p.2)))
  match rows with
  | [] => .error .indexError
  | r :: _ =>
    if rows.any (fun x => x.length != r.length) then .error .valueError
    else if r.length ≠ nPliesMax ∧ r.length ≠ nPliesMax + 1 then
      .error (.exc "This should not happen")
    else .ok rows

/-- pdl_tools.py 265-295 `input_pdl_from_sst`, symmetric case: the global layout (the local layouts
are returned too in the code).  Lines 267-290. -/
def inputPdlSym (sst : Table) (width nCovering : Nat) (nPanels nPanelsRed nPliesMax : Nat)
    (hasMiddle : Bool) : Py Table :=
  let cut := fun (k : Nat) => sst.map (fun row => renumber 0 (slice row k (width / 2)))
  let before : List (Option Table) :=
    if nCovering = 1 then [some (List.replicate nPanels [0]), some (cut 1)]
    else if nCovering = 2 then [some (List.replicate nPanels [0, 1]), some (cut 2)]
    else [none, some (cut 0)]
  globalPdl nPanelsRed nPliesMax hasMiddle true before none

/-- pdl_tools.py 297-329 `input_pdl_from_sst`, asymmetric case. -/
def inputPdlAsym (sst : Table) (width nCovering : Nat) (nPanels nPanelsRed nPliesMax : Nat)
    (hasMiddle : Bool) : Py Table :=
  let cut := fun (k : Nat) => sst.map (fun row => renumber 0 (slice row k (width - k)))
  let cov : Option Table :=
    if nCovering = 1 then some (List.replicate nPanels [0])
    else if nCovering = 2 then some (List.replicate nPanels [0, 1]) else none
  let k := if nCovering = 1 then 1 else if nCovering = 2 then 2 else 0
  globalPdl nPanelsRed nPliesMax hasMiddle false [cov, none, some (cut k)] (some [none, cov, none])

/-! ### pdl_ini.py -/

/-- pdl_ini.py 43-61 `read_pdls_excel`: `sheet k` is the content of the sheet `pdl<k>` (`none` if it
cannot be read).  The `finally` clause appends the variable `pdl`, also when the reading failed
(then it still holds the previous layout, or is unbound).  `fuel` bounds the number of sheets. -/
def readPdls (sheet : Nat → Option Table) : Nat → Nat → Option Table → List Table → Py (List Table)
  | 0, _, _, acc => .ok acc
  | fuel + 1, k, prev, acc =>
    match sheet k with
    | some t => readPdls sheet fuel (k + 1) (some t) (acc ++ [t])
    | none =>
      match prev with
      | some t => .ok (acc ++ [t])
      | none => .error .unbound

/-- pdl_ini.py 64-80 `check_pdls_ini`: the loop over the panels of one layout. -/
def checkPanels (plies : List Nat) : Nat → Table → Py Unit
  | _, [] => .ok ()
  | i, row :: rows => do
    let n ← pyGet plies i
    if (row.filter (fun x => x != -1)).length ≠ n then
      .error (.exc "Initial ply drop layout with wrong number of plies per panel")
    else checkPanels plies (i + 1) rows

/-- pdl_ini.py 64-80 `check_pdls_ini`; `plies` lists the ply counts of the reduced panels. -/
def checkPdlsIni (plies : List Nat) : List Table → Py Unit
  | [] => .ok ()
  | pdl :: rest =>
    if pdl.length ≠ plies.length then
      .error (.exc "Initial ply drop layout with wrong number of panels")
    else do
      checkPanels plies 0 pdl
      checkPdlsIni plies rest

end Bella
