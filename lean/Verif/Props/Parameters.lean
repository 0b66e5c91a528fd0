import Verif.Model.Parameters
import Verif.Model.Optimiser
import Verif.Proofs.Monad
/-
C70: the parameters of the optimiser.
-/
namespace Bella

/-- The Python integer `z` (`True` is 1 and `False` is 0). -/
inductive IsInt : PyObj → Int → Prop where
  | int (z : Int) : IsInt (.int z) z
  | true : IsInt (.bool Bool.true) 1
  | false : IsInt (.bool Bool.false) 0

/-- The Python number `q`. -/
inductive IsNumber : PyObj → ℚ → Prop where
  | int {x : PyObj} {z : Int} (h : IsInt x z) : IsNumber x z
  | float (q : ℚ) : IsNumber (.float q) q

theorem needInt_iff (x : PyObj) (z : Int) : needInt x = .ok z ↔ IsInt x z := by
  constructor
  · intro h
    cases x with
    | int y => simp only [needInt, Except.ok.injEq] at h; subst h; exact .int _
    | float q => simp [needInt] at h
    | bool b =>
      cases b
      · simp [needInt] at h; subst h; exact .false
      · simp [needInt] at h; subst h; exact .true
    | other b => simp [needInt] at h
  · rintro (z | _ | _) <;> rfl

theorem needNumber_iff (x : PyObj) (q : ℚ) : needNumber x = .ok q ↔ IsNumber x q := by
  constructor
  · intro h
    cases x with
    | int y => simp only [needNumber, Except.ok.injEq] at h; subst h; exact .int (.int _)
    | float q => simp only [needNumber, Except.ok.injEq] at h; subst h; exact .float _
    | bool b =>
      cases b
      · simp [needNumber] at h; subst h
        have := IsNumber.int IsInt.false
        simpa using this
      · simp [needNumber] at h; subst h
        have := IsNumber.int IsInt.true
        simpa using this
    | other b => simp [needNumber] at h
  · rintro (h | q)
    · rcases h with z | _ | _
      · rfl
      · simp [needNumber]
      · simp [needNumber]
    · rfl

theorem needPositive_iff (x : PyObj) (z : Int) : needPositive x = .ok z ↔ IsInt x z ∧ 1 ≤ z := by
  rw [← needInt_iff]
  unfold needPositive
  cases x with
  | int y =>
    simp only [npAround, needInt, bind, Except.bind, Except.ok.injEq]
    split_ifs with h
    · simp only [reduceCtorEq, false_iff]; rintro ⟨rfl, h'⟩; omega
    · simp only [Except.ok.injEq]
      constructor
      · rintro rfl; exact ⟨rfl, by omega⟩
      · exact fun h => h.1
  | float q => simp [npAround, needInt, bind, Except.bind]
  | bool b =>
    cases b
    · simp [npAround, needInt, bind, Except.bind]
      rintro rfl; simp
    · simp [npAround, needInt, bind, Except.bind]
      rintro rfl; simp
  | other b => cases b <;> simp [npAround, needInt, bind, Except.bind]

theorem needBool_iff (x : PyObj) (b : Bool) : needBool x = .ok b ↔ x = .bool b := by
  cases x <;> simp [needBool]

theorem bind_iff {α β : Type} (x : Py α) (f : α → Py β) (y : β) : (x >>= f) = .ok y ↔ ∃ a, x = .ok a ∧ f a = .ok y := by
  cases x with
  | error e => simp [bind, Except.bind]
  | ok a => simp [bind, Except.bind]

/-- **C70.** The parameters are accepted exactly when: the group sizes are integers with 1 ≤ minimum ≤ maximum, the number of initial layouts
and all the branching limits are integers of at least 1, the number of plies of the reference panel and `p_A` are numbers, the latter from 0 to
100, the switches are booleans, and `n_D1`, `n_D2`, `n_D3` are integers; the attributes are the given values. -/
theorem C70_accepted (a : ParArgs) (p : Params) : mkParams a = .ok p ↔
    (IsInt a.groupSizeMin p.groupSizeMin ∧ 1 ≤ p.groupSizeMin) ∧ (IsInt a.groupSizeMax p.groupSizeMax ∧ p.groupSizeMin ≤ p.groupSizeMax) ∧
    (IsInt a.nIniPlyDrops p.nIniPlyDrops ∧ 1 ≤ p.nIniPlyDrops) ∧
    (IsInt a.globalNodeLimit p.globalNodeLimit ∧ 1 ≤ p.globalNodeLimit) ∧
    (IsInt a.globalNodeLimitFinal p.globalNodeLimitFinal ∧ 1 ≤ p.globalNodeLimitFinal) ∧
    (IsInt a.localNodeLimit p.localNodeLimit ∧ 1 ≤ p.localNodeLimit) ∧
    (IsInt a.localNodeLimitFinal p.localNodeLimitFinal ∧ 1 ≤ p.localNodeLimitFinal) ∧
    IsNumber a.nPliesRef p.nPliesRef ∧ a.membrane = .bool p.membrane ∧ a.flexural = .bool p.flexural ∧
    (IsNumber a.pA p.pA ∧ 0 ≤ p.pA ∧ p.pA ≤ 100) ∧
    IsInt a.nD1 p.nD1 ∧ IsInt a.nD2 p.nD2 ∧ IsInt a.nD3 p.nD3 ∧
    (IsInt a.globalNodeLimit2 p.globalNodeLimit2 ∧ 1 ≤ p.globalNodeLimit2) ∧
    (IsInt a.localNodeLimit2 p.localNodeLimit2 ∧ 1 ≤ p.localNodeLimit2) ∧
    (IsInt a.globalNodeLimit3 p.globalNodeLimit3 ∧ 1 ≤ p.globalNodeLimit3) ∧
    (IsInt a.localNodeLimit3 p.localNodeLimit3 ∧ 1 ≤ p.localNodeLimit3) ∧
    p.timeGroup = a.timeGroup ∧ p.timeAll = a.timeAll := by
  constructor
  · intro h
    unfold mkParams at h
    simp only [bind_iff, needPositive_iff, needInt_iff, needNumber_iff, needBool_iff] at h
    obtain ⟨gmin, h1, gmax, h2, _, h3, n, h4, g, h5, gf, h6, l, h7, lf, h8, r, h9, m, h10, f, h11, pA, h12, _, h13, d1, h14, d2, h15, d3, h16,
      g2, h17, l2, h18, g3, h19, l3, h20, e⟩ := h
    have e := Except.ok.inj e
    subst e
    have h3' : gmin ≤ gmax := by
      by_contra hh
      rw [if_pos (by omega)] at h3
      cases h3
    have h13' : 0 ≤ pA ∧ pA ≤ 100 := by
      by_contra hh
      rw [if_neg hh] at h13
      cases h13
    exact ⟨h1, ⟨h2, h3'⟩, h4, h5, h6, h7, h8, h9, h10, h11, ⟨h12, h13'⟩, h14, h15, h16, h17, h18, h19, h20, rfl, rfl⟩
  · rintro ⟨h1, ⟨h2, h3⟩, h4, h5, h6, h7, h8, h9, h10, h11, ⟨h12, h13⟩, h14, h15, h16, h17, h18, h19, h20, h21, h22⟩
    unfold mkParams
    simp only [bind_iff, needPositive_iff, needInt_iff, needNumber_iff, needBool_iff]
    refine ⟨_, h1, _, h2, (), by rw [if_neg (by omega)], _, h4, _, h5, _, h6, _, h7, _, h8, _, h9, _, h10, _, h11, _, h12, (),
      by rw [if_pos h13], _, h14, _, h15, _, h16, _, h17, _, h18, _, h19, _, h20, ?_⟩
    rw [← h21, ← h22]
    rfl

/-- The default parameters are accepted. -/
example : ∃ p, mkParams {} = .ok p ∧ p.groupSizeMin = 4 ∧ p.groupSizeMax = 12 ∧ p.nIniPlyDrops = 5 := ⟨_, rfl, rfl, rfl, rfl⟩

/-- **C70 (violation).** "The numbers of plies, shifts and passes of the repair, and the time limits, are positive": they are not tested. -/
theorem C70_unchecked_violation (z1 z2 z3 : Int) (t1 t2 : PyObj) :
    ∃ p, mkParams { nD1 := .int z1, nD2 := .int z2, nD3 := .int z3, timeGroup := t1, timeAll := t2 } = .ok p ∧
      p.nD1 = z1 ∧ p.nD2 = z2 ∧ p.nD3 = z3 ∧ p.timeGroup = t1 ∧ p.timeAll = t2 := ⟨_, rfl, rfl, rfl, rfl, rfl, rfl⟩

/-- **C70 (violation).** "Wrong types are reported as errors of definition of the parameters": objects that cannot be rounded raise `TypeError`
before their type is tested. -/
theorem C70_type_violation (a : ParArgs) (h : a.groupSizeMin = .other false) : mkParams a = .error .typeError := by
  unfold mkParams
  rw [h]
  rfl

/-- **C70 (violation).** "With accepted parameters a design is returned": with a time limit of zero or less for the initial layouts (`lateAll`)
BELLA never returns one, whatever the structure and the random choices. -/
theorem C70_time_limit_violation {V : Type} [Zero V] [Add V] (B : BellaSetup V) (h : B.lateAll = true)
    (sched : List (List (List (Draw × Bool)) × Bool)) (r : Option OneResult) : bellaOptimiser B sched ≠ some (.ok r) := by
  have key : ∀ s, createInitialPdls s B.nIni B.lateAll sched = .error (.exc "No conform ply drop layout can be generated.") := by
    intro s
    unfold createInitialPdls collectPdls
    rw [h]
    have e : ∀ (gen : List (List (Draw × Bool)) → Py (Table × ℚ)), searchPdls gen B.nIni sched true ⟨[], []⟩ = .ok (some (⟨[], []⟩, true)) := by
      intro gen
      unfold searchPdls
      rw [if_neg (by simp)]
    rw [e]
    rfl
  intro hh
  unfold bellaOptimiser at hh
  have hl : ∀ pdls, B.layouts sched ≠ some (.ok pdls) := by
    intro pdls hp
    unfold BellaSetup.layouts at hp
    split at hp
    · cases hp
    · cases hp
    · split at hp
      · cases hp
      · rw [key] at hp
        cases hp
  split at hh
  · cases hh
  · cases hh
  · rename_i pdls e
    exact hl pdls e

end Bella
