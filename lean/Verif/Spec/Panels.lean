import Verif.Model.Blending
import Mathlib.Logic.Relation
/-
Specification vocabulary: adjacency and connectivity of the panels of a structure.
-/
namespace Spec
open Bella

/-- Panels number `i` and `j` are adjacent: one names the ID of the other as neighbour. -/
def Adj (panels : List PanelIds) (i j : Nat) : Prop :=
  ∃ p q, panels[i]? = some p ∧ panels[j]? = some q ∧ (q.ID ∈ p.neighbours ∨ p.ID ∈ q.neighbours)

/-- Any two panels are joined by a chain of adjacent panels. -/
def ConnectedPanels (panels : List PanelIds) : Prop :=
  ∀ i j, i < panels.length → j < panels.length → Relation.ReflTransGen (Adj panels) i j

end Spec
