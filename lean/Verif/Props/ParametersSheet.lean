import Verif.Spec.ParametersSheet
import Verif.Props.InputFile
import Verif.Props.Parameters
/-
C88: the sheet Parameters written by BELLA (src/BELLA/save_set_up.py) records the parameters that were used.
-/
namespace Bella
open Spec

theorem float_objCell {x : PyObj} {q : ℚ} (h : IsNumber x q) : (objCell x).asFloat = .ok q := by
  cases h with
  | int hz => cases hz <;> simp [objCell, Cell.asFloat]
  | float q => rfl

/-- **C88.** The sheet Parameters of BELLA records the parameters: made again from what it says, they are the same; the time limits,
which the constructor does not test, are the same numbers when they are numbers. -/
theorem C88_bella_parameters (a : ParArgs) (p : Params) (t1 t2 : ℚ) (h : mkParams a = .ok p) (h1 : IsNumber a.timeGroup t1)
    (h2 : IsNumber a.timeAll t2) :
    ∃ a', parsOf (saveParams p) = .ok a' ∧ mkParams a' = .ok { p with timeGroup := .float t1, timeAll := .float t2 } := by
  obtain ⟨g1, g2, g3, g4, g5, g6, g7, g8, g9, g10, g11, g12, g13, g14, g15, g16, g17, g18, e1, e2⟩ := (C70_accepted a p).1 h
  rw [← e1] at h1
  rw [← e2] at h2
  refine ⟨{ groupSizeMin := .int p.groupSizeMin, groupSizeMax := .int p.groupSizeMax, globalNodeLimit := .int p.globalNodeLimit
            localNodeLimit := .int p.localNodeLimit, localNodeLimitFinal := .int p.localNodeLimitFinal
            globalNodeLimitFinal := .int p.globalNodeLimitFinal, globalNodeLimit2 := .int p.globalNodeLimit2
            localNodeLimit2 := .int p.localNodeLimit2, globalNodeLimit3 := .int p.globalNodeLimit3
            localNodeLimit3 := .int p.localNodeLimit3, nIniPlyDrops := .int p.nIniPlyDrops, pA := .float p.pA, nD1 := .int p.nD1
            nD2 := .int p.nD2, nD3 := .int p.nD3, membrane := .bool p.membrane, flexural := .bool p.flexural
            nPliesRef := .float p.nPliesRef, timeGroup := .float t1, timeAll := .float t2 }, ?_, ?_⟩
  · unfold parsOf saveParams
    simp [Sheet.flag, Sheet.int, Sheet.float, Sheet.cell, List.lookup, Cell.asFlag, Cell.asInt, float_objCell h1, float_objCell h2,
      bind, Except.bind, truncRat_int, pure, Except.pure]
    simp [Cell.asFloat]
  · exact (C70_accepted _ _).2 ⟨⟨.int _, g1.2⟩, ⟨.int _, g2.2⟩, ⟨.int _, g3.2⟩, ⟨.int _, g4.2⟩, ⟨.int _, g5.2⟩, ⟨.int _, g6.2⟩, ⟨.int _, g7.2⟩,
      .float _, rfl, rfl, ⟨.float _, g11.2⟩, .int _, .int _, .int _, ⟨.int _, g15.2⟩, ⟨.int _, g16.2⟩, ⟨.int _, g17.2⟩, ⟨.int _, g18.2⟩,
      rfl, rfl⟩

/-- The case of the default parameters. -/
theorem C88_bella_example : ∃ (p : Params) (a' : ParArgs), mkParams {} = .ok p ∧ p.groupSizeMax = 12 ∧
    (saveParams p).lookup "maximum group size" = some (.num 12) ∧ parsOf (saveParams p) = .ok a' ∧
    mkParams a' = .ok { p with timeGroup := .float 1, timeAll := .float 100 } := by
  obtain ⟨p, hp, t⟩ := ok_of_test (mkParams {})
    (fun p => decide (p.groupSizeMax = 12 ∧ (saveParams p).lookup "maximum group size" = some (.num 12))) (by decide +kernel)
  simp only [decide_eq_true_eq] at t
  obtain ⟨a', h1, h2⟩ := C88_bella_parameters {} p 1 100 hp (by simpa using IsNumber.int (.int 1)) (by simpa using IsNumber.int (.int 100))
  exact ⟨p, a', hp, t.1, t.2, h1, h2⟩

end Bella
