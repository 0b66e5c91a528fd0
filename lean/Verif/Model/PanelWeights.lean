import Verif.Model.Blending
/-
The panel weightings of the blending strip computed by `ReducedMultiPanel` from the weightings of the panels of the
structure (reduced_multipanels.py 71-75, 102-103 and 149-163).

The lists `panel_weightings` of lines 165-198 are not modelled: nothing reads them.
-/
namespace Bella

/-- reduced_multipanels.py 102-103: the weightings of the panels of the strip, which are panels of the structure. -/
def Reduced.stripWeights (r : Reduced) (weights : List ℚ) : List ℚ :=
  r.indForReduc.map (fun (i : Nat) => weights.getD i 0)

/-- reduced_multipanels.py 149-163: `actual_panel_weightings`, the weightings of the panels of the strip in the objective. -/
def Reduced.actualWeights (r : Reduced) (weights : List ℚ) : List ℚ :=
  actualPanelWeightings r.indPanelsGuide (r.stripWeights weights)

/-- reduced_multipanels.py 71-75: `panel_weightings_ini`; the loop adds entries of the array being filled, which starts
with zeros. -/
def Reduced.iniWeights (r : Reduced) : List ℚ :=
  (List.range r.nPlies.length).foldl (fun (acc : List ℚ) (i : Nat) =>
    let j := r.indPanelsGuide.getD i 0
    acc.set j (acc.getD j 0 + acc.getD i 0)) (List.replicate r.nPlies.length 0)

end Bella
