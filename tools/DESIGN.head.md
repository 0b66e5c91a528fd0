# Formal model of noemiefedon/BELLA in Lean 4 — design

(This file is generated by `tools/design.py` from `tools/DESIGN.head.md`, `tools/design_rows.json`
and `properties.jsonl`; `MANIFEST.json` and `lean/Verif.lean` by `tools/manifest.py`.)

## 1. Layout

* `lean/Verif/Model/*.lean` — the model: one Lean definition per Python function (or per loop body of
  a long function), each with a comment giving file and lines in `/repo` and any simplification.
* `lean/Verif/Spec/*.lean` — the specification vocabulary ("contiguity", "balanced", "nested", "share
  of ±45 plies", lamination parameters by through-thickness integration …). It uses no model function.
* `lean/Verif/Proofs/*.lean` — helper lemmas.
* `lean/Verif/Props/*.lean` — the property theorems `Cxx_…` (@@NTHM@@ theorems for @@NCLAIMS@@ properties), each
  accompanied by `example`s exhibiting a concrete, non-trivial instance that meets the hypotheses.
* `properties.jsonl` — the properties in English; `MANIFEST.json` — which theorems prove which;
  `seeded/LOG.jsonl` — mutation tests of the theorems.

Naming: `Cxx_…_violation` (and the few negative theorems named in the manifest notes) prove that the
pinned code does *not* have a clause of the property which a user would expect; the English statement
marks the clause as "(Violated: …)". They are part of the result: the property as intended is stated,
and where the code breaks it, the failure is a theorem, with the largest class of inputs for which the
intended clause holds proved beside it. A theorem with suffix `_partial` would prove only part of its
property; there is none at present.

## 2. Modelling conventions

* Stacking sequences are `List Int` (angles in degrees); `-1` is a dropped ply, `666`, `6666`, `1000`
  keep the meaning they have in the code as sentinels. Ply counts and indices are `Nat`; Python's negative
  indices are modelled (`pyGet`) where the code can reach them.
* Floating-point numbers are idealised as exact rationals `ℚ` (`ℝ` where trigonometry matters: C65).
  Rounding is *not* modelled. Literal tolerances (`1e-10`, `1e-15`, `1e-20`) are kept as rationals.
  `NaN` is modelled where the code produces it on purpose (C39, C65).
* Python exceptions are values of `Except String`; messages are those of the code where a theorem speaks about them.
* `while` loops without an evident bound are modelled by recursion on fuel, and theorems quantify over all
  fuels ("whenever it returns") or prove that enough fuel exists (termination) or that none does.
* Random choices (`random`, `np.random`) and the clock (`time.time()`) are universally quantified schedules.
* NumPy aliasing/in-place updates are modelled by returning the updated arrays. Ragged `np.array`s behave as
  in NumPy < 1.24 (object arrays).
* Printing, plotting, saving to files and timing are dropped.
* `src/CLA` (lamination parameter and ABD functions) is **not in the repository**: `calc_lampam` is a parameter.
  Theorems that need its meaning take as hypothesis that it computes the through-thickness sums of `Spec/Lampam.lean`,
  with an arbitrary function for the trigonometric values of each angle.
* In the search and repair models the distance to the feasible region of Abdalla's 10 % rule is an arbitrary function of the
  in-plane lamination parameters; `calc_distance_Abdalla` itself is modelled over the reals (C67).
* `np.linalg.inv` of a 3x3 matrix is the exact cofactor inverse, an exception for a zero determinant (C69).

## 3. What is modelled

| source | model file |
|--------|-----------|
| guidelines/disorientation.py | Disorientation, ViolaCount |
| guidelines/contiguity.py | Contiguity, ViolaCount |
| guidelines/balance.py, dam_tol.py, ten_percent_rule.py, one_stack.py, ply_drop_spacing.py | Guidelines, PdlIni, ViolaCount |
| guidelines/internal_contig.py, internal_diso_contig.py, external_contig.py, external_diso_contig.py | Filters, Pruning |
| guidelines/ten_percent_rule_Abdalla.py | AbdallaDistance |
| guidelines/ipo_oopo.py, BELLA/materials.py | Orthotropy |
| BELLA/parameters.py | Parameters |
| BELLA/constraints.py | Constraints |
| BELLA/multipanels.py, reduced_multipanels.py, format_pdl.py | Blending, MultiPanel, PanelWeights, DividePanels |
| BELLA/panels.py | Panels |
| BELLA/ply_order.py, moments_of_areas.py, lampam_matrix.py | PlyOrder, LampamMatrix |
| BELLA/divide_panels.py, LAYLA_V02/divide_laminate_*.py | DividePanels |
| BELLA/objectives.py, obj_function.py, LAYLA_V02/objectives.py | Objectives |
| BELLA/pdl_tools.py, pdl_ini.py, pdl_group.py | PdlTools, PdlIni |
| BELLA/pruning.py, optimiser_with_one_pdl.py | Pruning, Search, LevelWeights, OnePdl |
| BELLA/optimiser.py, save_result.py, results.py | Search, Optimiser, Report |
| RELAY/repair_10_bal.py, repair_tools.py | Repair10, RepairAbdalla, RepairTools |
| RELAY/repair_diso_contig*.py, repair_from_*.py | RepairDisoContig |
| RELAY/repair_flexural*.py | Flexural, FlexuralSwap |
| RELAY/repair_membrane*.py | Membrane |
| RELAY/repair_ss.py, repair_reference_panel.py, repair_mp.py | RepairSs, RepairReference, RepairMp |
| RELAY/thick_to_thin.py, thin_to_thick.py | StripBeam, ThickToThin, ThinToThick |
| LAYLA_V02/ply_order.py | PlyOrder |
| LAYLA_V02/moment_of_areas.py, LAYLA_V02/optimiser.py 85-117 | LaylaMoments |
| LAYLA_V02/pruning.py | LaylaPruning |
| LAYLA_V02/constraints.py | LaylaConstraints |
| LAYLA_V02/parameters.py, LAYLA_V02/targets.py | LaylaParameters |
| LAYLA_V02/optimiser.py, outer_step_sym.py, outer_step_asym.py, beam_search.py | LaylaSearch, LaylaPenalties |
| divers/sorting.py, arrays.py | Divers |
| divers/subset_sum.py | SubsetSum |
| buckling/buckling.py | Buckling, BucklingSS |
| BELLA/save_set_up.py, run_BELLA_from_input_file_SST_1.py, run_BELLA_from_input_file_horseshoe.py (reading) | InputFile, ParametersSheet |
| LAYLA_V02/save_set_up.py | LaylaInputFile |

## 4. What is not modelled

* `src/CLA` (absent).
* Reading and writing of workbooks except for the sheet logic of `read_pdls_excel` and of input files (C84, C88: the labels and the values of the
  cells; the workbook itself, the texts made of integers, LAYLA's row `type of objective function`, which is never read, are not modelled); of `save_result.py` and
  `results.py` only the values of the cells, `pretty_print`, `excel`, `find_in_files`, `edit_multiple_files`, the scripts outside `src`.
* in LAYLA_V02's search (C78, C87): `calc_penalty_ipo_oopo_ss` (which it imports, but which does not exist in the repository, so that
  the modules cannot be imported as they stand; it is a parameter of the model), the counter `n_nodes` and printing; `not_constraints` is in C91, the draws being parameters.
* `calc_unconst_obj_multi_panel_A/D` (they read attributes that no object has), `internal_diso_contig_mod` (never called).
* Float rounding, dtype overflow, execution time and memory.

## 5. Properties

See `properties.jsonl` for the statements, `MANIFEST.json` for the theorems.

| id | property | modelled | proof method | Props files |
|----|----------|----------|--------------|-------------|
@@ROWS@@

## 6. Trusted base

* Lean 4.33.0's kernel. No axioms are added; no `native_decide`, no `bv_decide`, no unfinished proofs. Each theorem depends on at most
  `propext`, `Classical.choice` and `Quot.sound` (check with `#print axioms`; `vcheck` replays every module).
* The hand translation from Python to Lean (comments of the definitions give file and lines and say where it simplifies), and
  the semantics given above to NumPy primitives (`np.unique`, `argmin`, `argsort`, `delete`, slices, broadcasting).
* The idealisation of floats by exact arithmetic; the parameters standing for `calc_lampam`, the Abdalla distance, random numbers and the clock.
* The mutation tests of `seeded/LOG.jsonl` are evidence that the theorems are sensitive to realistic bugs; they are not part of the proofs.
