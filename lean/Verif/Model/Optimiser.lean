import Verif.Model.OnePdl
import Verif.Model.PdlIni
/-
Model of src/BELLA/optimiser.py `BELLA_optimiser` from the division of the panels to the choice of the best design.

Not modelled: the files read and written, the filtering of the targets and weights of the panels (see Model/Panels.lean)
and the tables computed before the loop (ply order, moments of areas, contributions to the lamination parameters; see
Model/PlyOrder.lean), which enter here through the `Problem` of each layout.
-/
namespace Bella

/-- divide_panels.py 29-365 `divide_panels` on a blending strip with `nPlies` plies in its panels, the thickest panel of the
structure having `nMax` plies.  `none`: a `while` loop is still running after `fuel` iterations. -/
def divideStrip (sym : Bool) (nMax nCov gmin gmax : Int) (nPlies : List Nat) (fuel : Nat) :
    Option (Py (List Int × List PanelGroups)) :=
  match divideThickest sym nMax nCov gmin gmax with
  | .error e => some (.error e)
  | .ok thick =>
    match nPlies.mapM (fun (n : Nat) => dividePanel sym nMax nCov gmax thick (n : Int) fuel) with
    | none => none
    | some panels => some (.ok (thick.1, panels))

/-- What BELLA_optimiser is given: the search problem of each layout, the data of the repairs and of the strip, the numbers of
plies of the panels, the group sizes, the number of initial layouts, and whether the time limits are zero; `fuel` bounds the
iterations of divide_panels. -/
structure BellaSetup (V : Type) where
  problem : Table → Problem V
  O : OneSetup
  plies : List Nat
  gmin : Int
  gmax : Int
  nIni : Nat
  lateGroup : Bool
  lateAll : Bool
  save : Bool
  fuel : Nat

/-- multipanels.py 40 `n_plies_max`. -/
def BellaSetup.nMax {V : Type} (B : BellaSetup V) : Nat := B.plies.foldr max 0

/-- multipanels.py 225 `has_middle_ply` (the middle ply of a panel: panels.py 213-230 `set_n_plies`). -/
def BellaSetup.hasMiddle {V : Type} (B : BellaSetup V) : Bool :=
  B.O.S.c.sym && B.plies.any (fun (n : Nat) => n % 2 == 1)

/-- optimiser.py 69-71 and pdl_ini.py 215-300: the data with which the initial layouts are drawn. -/
def BellaSetup.stripData {V : Type} (B : BellaSetup V) (sizes : List Int) (panels : List PanelGroups) : Py StripData := do
  let drops ← (List.range sizes.length).mapM (calcPlyDrops sizes panels)
  let bs ← B.O.S.r.boundaries.mapM (fun (b : Nat × Nat) => do
    let w ← dictGet B.O.S.r.boundaryWeights b
    return (b.1, b.2, w))
  return {
    nPanels := B.O.S.r.nPlies.length
    nPliesMax := B.nMax
    hasMiddle := B.hasMiddle
    middleIdx := B.O.S.r.nPlies.map (fun (n : Nat) => if B.O.S.c.sym && n % 2 == 1 then ((n : Int) + 1) / 2 else 0)
    sizes := sizes.map Int.toNat
    drops := drops.map (fun (l : List Int) => l.map Int.toNat)
    boundaries := bs
    sym := B.O.S.c.sym
    nCovering := B.O.S.c.nCovering
    pdlSpacing := B.O.S.c.pdlSpacing
    minDrop := B.O.S.c.minDrop
    late0 := B.lateGroup }

/-- optimiser.py 61-86: steps 1 and 2, the initial ply drop layouts (no file of layouts); the second division, into one group,
has no other effect here than its exceptions.  `none`: the schedule of random choices ends before the search, or the bound of
the iterations is reached. -/
def BellaSetup.layouts {V : Type} (B : BellaSetup V) (sched : List (List (List (Draw × Bool)) × Bool)) :
    Option (Py (List Table)) :=
  match divideStrip B.O.S.c.sym B.nMax B.O.S.c.nCovering B.gmin B.gmax B.O.S.r.nPlies B.fuel with
  | none => none
  | some (.error e) => some (.error e)
  | some (.ok (sizes, panels)) =>
    match B.stripData sizes panels with
    | .error e => some (.error e)
    | .ok s =>
      match createInitialPdls s B.nIni B.lateAll sched with
      | .error e => some (.error e)
      | .ok none => none
      | .ok (some pdls) =>
        match divideStrip B.O.S.c.sym B.nMax B.O.S.c.nCovering B.gmin 10000 B.O.S.r.nPlies B.fuel with
        | none => none
        | some (.error e) => some (.error e)
        | some (.ok _) => some (.ok pdls)

/-- optimiser.py 105-123, results.py 96-130: the loop over the layouts; entries of the tables that are not written are `none`.
The test of line 119 holds exactly for the objective zero. -/
def outerLoop (one : Table → Option (Py (Option OneResult))) : List Table → Option (Py (List (Option OneResult)))
  | [] => some (.ok [])
  | pdl :: rest =>
    match one pdl with
    | none => none
    | some (.error e) => some (.error e)
    | some (.ok none) =>
      match outerLoop one rest with
      | some (.ok l) => some (.ok (none :: l))
      | other => other
    | some (.ok (some r)) =>
      if r.obj = 0 then some (.ok (some r :: rest.map (fun _ => none)))
      else
        match outerLoop one rest with
        | some (.ok l) => some (.ok (some r :: l))
        | other => other

/-- optimiser.py 126-133: the best design, `none` for an entry never written. -/
def pickBest (tab : List (Option OneResult)) : Py (Option OneResult) :=
  if tab.length = 0 then .error .valueError
  else pyGet tab (argMinNan (tab.map (Option.map (fun (r : OneResult) => (r.obj, r)))))

/-- optimiser.py 105-134: the design returned for a list of layouts. -/
def bestDesign (one : Table → Option (Py (Option OneResult))) (pdls : List Table) : Option (Py (Option OneResult)) :=
  match outerLoop one pdls with
  | none => none
  | some (.error e) => some (.error e)
  | some (.ok tab) => some (pickBest tab)

/-- optimiser.py 30-163 `BELLA_optimiser`, without a file of initial layouts. -/
def bellaOptimiser {V : Type} [Zero V] [Add V] (B : BellaSetup V) (sched : List (List (List (Draw × Bool)) × Bool)) :
    Option (Py (Option OneResult)) :=
  match B.layouts sched with
  | none => none
  | some (.error e) => some (.error e)
  | some (.ok pdls) =>
    bestDesign (fun pdl => optimiserOnePdl (B.problem pdl) B.O B.save B.plies.length B.nMax) pdls

end Bella
