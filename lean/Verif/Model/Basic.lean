/-
Common vocabulary of the model of noemiefedon/BELLA.
-/
namespace Bella

/-- Python exceptions as values.  `exc` carries the message head of the `raise Exception(...)`
statements of the code, the other constructors are the built-in exceptions the code can trigger. -/
inductive Err where
  | exc (msg : String)
  | indexError
  | valueError
  | keyError
  | typeError
  | zeroDivision
  | unbound
  deriving DecidableEq, Repr

/-- Result of a Python call: a value or an exception. -/
abbrev Py := Except Err

/-- A stacking sequence: a numpy array of ply angles in degrees
(`-1` marks a dropped ply in tables, `666` an undetermined ply during the repair). -/
abbrev Stack := List Int

/-- numpy indexing `ss[i]` for an in-range non-negative index (every use in the model is guarded
by the same range bounds as in the code; out of range it returns 0). -/
def nth (ss : Stack) (i : Nat) : Int := ss.getD i 0

/-- numpy slice `ss[a:b]` with `0 ≤ a`, `0 ≤ b`. -/
def slice {α : Type} (ss : List α) (a b : Nat) : List α := (ss.take b).drop a

/-- numpy slice `ss[-k:]`: the last `k` entries, but the whole array for `k = 0`
(and for `k` larger than the size). -/
def lastK {α : Type} (ss : List α) (k : Nat) : List α :=
  if k = 0 then ss else ss.drop (ss.length - k)

/-- The damage tolerance attribute of a constraint object: BELLA's `Constraints` carries
`dam_tol_rule` (src/BELLA/constraints.py), other constraint objects only `n_plies_dam_tol`;
the code distinguishes them with `hasattr(constraints, 'dam_tol_rule')`. -/
inductive DamTolAttr where
  | rule (r : Int)
  | nPlies (k : Int)
  deriving DecidableEq, Repr

/-- The condition, spelled out repeatedly in the code (e.g. disorientation.py 209-215),
under which two plies on each face are protected by the damage tolerance rule. -/
def DamTolAttr.twoPlies : DamTolAttr → Bool
  | .rule r => r == 2 || r == 3
  | .nPlies k => k == 2

end Bella
