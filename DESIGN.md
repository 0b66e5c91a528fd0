# Formal model of noemiefedon/BELLA in Lean 4 — design

(This file is generated by `tools/design.py` from `tools/DESIGN.head.md`, `tools/design_rows.json`
and `properties.jsonl`; `MANIFEST.json` and `lean/Verif.lean` by `tools/manifest.py`.)

## 1. Layout

* `lean/Verif/Model/*.lean` — the model: one Lean definition per Python function (or per loop body of
  a long function), each with a comment giving file and lines in `/repo` and any simplification.
* `lean/Verif/Spec/*.lean` — the specification vocabulary ("contiguity", "balanced", "nested", "share
  of ±45 plies", lamination parameters by through-thickness integration …). It uses no model function.
* `lean/Verif/Proofs/*.lean` — helper lemmas.
* `lean/Verif/Props/*.lean` — the property theorems `Cxx_…` (568 theorems for 91 properties), each
  accompanied by `example`s exhibiting a concrete, non-trivial instance that meets the hypotheses.
* `properties.jsonl` — the properties in English; `MANIFEST.json` — which theorems prove which;
  `seeded/LOG.jsonl` — mutation tests of the theorems.

Naming: `Cxx_…_violation` (and the few negative theorems named in the manifest notes) prove that the
pinned code does *not* have a clause of the property which a user would expect; the English statement
marks the clause as "(Violated: …)". They are part of the result: the property as intended is stated,
and where the code breaks it, the failure is a theorem, with the largest class of inputs for which the
intended clause holds proved beside it. A theorem with suffix `_partial` would prove only part of its
property; there is none at present.

## 2. Modelling conventions

* Stacking sequences are `List Int` (angles in degrees); `-1` is a dropped ply, `666`, `6666`, `1000`
  keep the meaning they have in the code as sentinels. Ply counts and indices are `Nat`; Python's negative
  indices are modelled (`pyGet`) where the code can reach them.
* Floating-point numbers are idealised as exact rationals `ℚ` (`ℝ` where trigonometry matters: C65).
  Rounding is *not* modelled. Literal tolerances (`1e-10`, `1e-15`, `1e-20`) are kept as rationals.
  `NaN` is modelled where the code produces it on purpose (C39, C65).
* Python exceptions are values of `Except String`; messages are those of the code where a theorem speaks about them.
* `while` loops without an evident bound are modelled by recursion on fuel, and theorems quantify over all
  fuels ("whenever it returns") or prove that enough fuel exists (termination) or that none does.
* Random choices (`random`, `np.random`) and the clock (`time.time()`) are universally quantified schedules.
* NumPy aliasing/in-place updates are modelled by returning the updated arrays. Ragged `np.array`s behave as
  in NumPy < 1.24 (object arrays).
* Printing, plotting, saving to files and timing are dropped.
* `src/CLA` (lamination parameter and ABD functions) is **not in the repository**: `calc_lampam` is a parameter.
  Theorems that need its meaning take as hypothesis that it computes the through-thickness sums of `Spec/Lampam.lean`,
  with an arbitrary function for the trigonometric values of each angle.
* In the search and repair models the distance to the feasible region of Abdalla's 10 % rule is an arbitrary function of the
  in-plane lamination parameters; `calc_distance_Abdalla` itself is modelled over the reals (C67).
* `np.linalg.inv` of a 3x3 matrix is the exact cofactor inverse, an exception for a zero determinant (C69).

## 3. What is modelled

| source | model file |
|--------|-----------|
| guidelines/disorientation.py | Disorientation, ViolaCount |
| guidelines/contiguity.py | Contiguity, ViolaCount |
| guidelines/balance.py, dam_tol.py, ten_percent_rule.py, one_stack.py, ply_drop_spacing.py | Guidelines, PdlIni, ViolaCount |
| guidelines/internal_contig.py, internal_diso_contig.py, external_contig.py, external_diso_contig.py | Filters, Pruning |
| guidelines/ten_percent_rule_Abdalla.py | AbdallaDistance |
| guidelines/ipo_oopo.py, BELLA/materials.py | Orthotropy |
| BELLA/parameters.py | Parameters |
| BELLA/constraints.py | Constraints |
| BELLA/multipanels.py, reduced_multipanels.py, format_pdl.py | Blending, MultiPanel, PanelWeights, DividePanels |
| BELLA/panels.py | Panels |
| BELLA/ply_order.py, moments_of_areas.py, lampam_matrix.py | PlyOrder, LampamMatrix |
| BELLA/divide_panels.py, LAYLA_V02/divide_laminate_*.py | DividePanels |
| BELLA/objectives.py, obj_function.py, LAYLA_V02/objectives.py | Objectives |
| BELLA/pdl_tools.py, pdl_ini.py, pdl_group.py | PdlTools, PdlIni |
| BELLA/pruning.py, optimiser_with_one_pdl.py | Pruning, Search, LevelWeights, OnePdl |
| BELLA/optimiser.py, save_result.py, results.py | Search, Optimiser, Report |
| RELAY/repair_10_bal.py, repair_tools.py | Repair10, RepairAbdalla, RepairTools |
| RELAY/repair_diso_contig*.py, repair_from_*.py | RepairDisoContig |
| RELAY/repair_flexural*.py | Flexural, FlexuralSwap |
| RELAY/repair_membrane*.py | Membrane |
| RELAY/repair_ss.py, repair_reference_panel.py, repair_mp.py | RepairSs, RepairReference, RepairMp |
| RELAY/thick_to_thin.py, thin_to_thick.py | StripBeam, ThickToThin, ThinToThick |
| LAYLA_V02/ply_order.py | PlyOrder |
| LAYLA_V02/moment_of_areas.py, LAYLA_V02/optimiser.py 85-117 | LaylaMoments |
| LAYLA_V02/pruning.py | LaylaPruning |
| LAYLA_V02/constraints.py | LaylaConstraints |
| LAYLA_V02/parameters.py, LAYLA_V02/targets.py | LaylaParameters |
| LAYLA_V02/optimiser.py, outer_step_sym.py, outer_step_asym.py, beam_search.py | LaylaSearch, LaylaPenalties |
| divers/sorting.py, arrays.py | Divers |
| divers/subset_sum.py | SubsetSum |
| buckling/buckling.py | Buckling, BucklingSS |
| BELLA/save_set_up.py, run_BELLA_from_input_file_SST_1.py, run_BELLA_from_input_file_horseshoe.py (reading) | InputFile, ParametersSheet |
| LAYLA_V02/save_set_up.py | LaylaInputFile |

## 4. What is not modelled

* `src/CLA` (absent).
* Reading and writing of workbooks except for the sheet logic of `read_pdls_excel` and of input files (C84, C88: the labels and the values of the
  cells; the workbook itself, the texts made of integers, LAYLA's row `type of objective function`, which is never read, are not modelled); of `save_result.py` and
  `results.py` only the values of the cells, `pretty_print`, `excel`, `find_in_files`, `edit_multiple_files`, the scripts outside `src`.
* in LAYLA_V02's search (C78, C87): `calc_penalty_ipo_oopo_ss` (which it imports, but which does not exist in the repository, so that
  the modules cannot be imported as they stand; it is a parameter of the model), the counter `n_nodes` and printing; `not_constraints` is in C91, the draws being parameters.
* `calc_unconst_obj_multi_panel_A/D` (they read attributes that no object has), `internal_diso_contig_mod` (never called).
* Float rounding, dtype overflow, execution time and memory.

## 5. Properties

See `properties.jsonl` for the statements, `MANIFEST.json` for the theorems.

| id | property | modelled | proof method | Props files |
|----|----------|----------|--------------|-------------|
| C01 | Pairwise disorientation check measures the angle between fibre directions | `is_diso` on ℤ | `omega` against the distance modulo 180 (`Spec.PlyAngle`) | Diso |
| C02 | Laminate disorientation check accepts exactly the laminates whose neighbouring plies are within delta_angle | `is_diso_ss` loop with early return | induction over the laminate; rule 1 recorded as a negative theorem | Diso |
| C03 | Disorientation violation counts are exact and vanish exactly on compliant laminates | the violation vectors and sums for one and several laminates | induction; equivalence with C02's specification | Diso |
| C04 | Contiguity check accepts exactly laminates without a block of more than n_contig equal plies | the five hand-unrolled loops of `is_contig` | each loop ⇔ no window of n+1 equal plies; closed under reversal and infixes | Contig |
| C05 | Contiguity violation measures vanish exactly on compliant laminates | `calc_contig_vector`, `calc_matrix_viol_contig`, penalties | counting windows by induction | Contig |
| C06 | Balance check and balance penalty agree with the definition | `is_balanced`, `calc_penalty_bal` | counts; permutation invariance; bounds on ℚ | Balance, TenPercent |
| C07 | Damage tolerance check matches the rule definitions | `is_dam_tol` with index errors | case analysis on both faces | Balance |
| C08 | 10% rule check accepts exactly laminates with the minimum ply fractions | all ply-count branches of `is_ten_percent_rule` | arithmetic on ℚ; witness for the wrong middle ply of the queue branch | TenPercent |
| C09 | 10% rule penalty is zero exactly on compliant ply counts | `calc_penalty_10_ss`, `calc_penalty_10_pc` | arithmetic on ℚ, zero sets | TenPercent |
| C10 | Ply drop spacing penalty is zero exactly when ply drops are far enough apart | `calc_penalty_spacing_1ss`, `calc_penalty_spacing`, `is_same_pdl` | induction on the list of drop positions | Spacing |
| C11 | Stacking sequence rule checker accepts exactly the rule-abiding laminates | `check_lay_up_rules`, `check_ply_drop_rules` as `Except` | composition of C02–C10; first violated rule | OneStack |
| C12 | Candidate filtering keeps exactly the admissible candidates and keeps companion rows aligned | row filters with their delete loops (both junction orders) | filter = specification filter, companion rows included | Filters |
| C13 | Locally filtered candidates give globally feasible laminates | same definitions as C12 | compositionality of windows across a junction | Filters |
| C14 | Every Constraints object that can be built is well formed | the `Constraints` constructor as a validation pipeline | inversion of the pipeline, invariants of the record | Constraints |
| C15 | Reduction to the blending strip loses no panel information | `ReducedMultiPanel` (np.unique with inverse), reduce / extend | sortedness, index maps, exact failure condition | Reduced |
| C16 | The reference panel is the panel requested | choice of the reference panel | `argmax`-style search over a sorted list | Reduced |
| C17 | Stacking sequence tables and stacking sequences convert back and forth | table conversions of `format_pdl.py` | induction on the layout; -1 as an angle is a witness | FormatPdl, RepairReference |
| C18 | Ply position conversions point at the same ply | position conversions of `format_pdl.py` | loop invariants; duplicate positions are a witness | Positions |
| C19 | Every ply is optimised exactly once | `calc_ply_order`, `calc_levels` | permutation proof | Moments |
| C20 | Ply moments of area add up to those of the laminate | `calc_mom_of_areas` (BELLA and LAYLA) on ℚ | telescoping sums for all ply counts | Moments |
| C21 | Laminate partitioning yields admissible groups covering all plies | `divide_panels`, `divide_laminate_sym/asym`, `forbidden_ply_counts` | arithmetic with integer division; minimal group number | Divide |
| C22 | Ply drops are fully distributed over the groups | the drop distribution loop of `divide_panels` (half-to-even rounding) | loop invariant and variant | DropDistribution |
| C23 | Multi-panel objective behaves as a penalised distance | `calc_obj_one_panel`, `calc_obj_multi_panel`, LAYLA objectives | order reasoning on ℚ | Objectives |
| C24 | Minimum ply counts computed for the repair guarantee the 10% rule | `calc_mini_10` | ceil arithmetic, iff with the shares | MinCounts |
| C25 | Repair for balance and 10% rule returns a complete, balanced, compliant ply content | `repair_10_bal_2` (all its passes) | loop invariants through every pass | Repair10, Repair10Fix |
| C26 | Repair for balance and 10% rule leaves compliant laminates unchanged | same | fixpoint proof; odd middle ply witness | Repair10Fix |
| C27 | Disorientation/contiguity repair only re-orders plies | `repair_diso_contig(_list)` and the four from-inside / from-outside searches with their permutations | search invariant: multiset of plies | RepairDisoContig |
| C28 | A successful disorientation/contiguity repair yields a compliant laminate | same | window invariants per step; witnesses for the three gaps | RepairDisoContig |
| C29 | Queue plies are tried in order of increasing angular distance | `order_plies_to_test` | sorting and deduplication | PlyChoice |
| C30 | The chosen permutation is the lexicographically smallest admissible one | `smallest_row` | lexicographic order, independent of the order of the rows | PlyChoice |
| C31 | Flexural refinement by moving plies keeps the ply content, symmetry and lay-up rules and never worsens the objective | `repair_flexural_2`, `repair_flexural_3` | loop invariants; objective is an arbitrary function of the laminate | Flexural |
| C32 | Flexural refinement by swapping blocks re-orders plies and only accepts improving swaps | `repair_flexural_1` (blocks, potential swaps) | loop invariants; witnesses | FlexuralSwap |
| C33 | In-plane refinement keeps the size, the balance and the 10% rule of the laminate, and its candidates improve the objective | `repair_membrane` and its four variants | loop invariants over candidate lists | Membrane, MembraneMore, MembraneTen |
| C34 | Thick-to-thin repair yields nested panels with the requested ply counts | `repair_thick_to_thin`: nodes of the beam, pruning tables | invariant over all nodes of the beam | ThickToThin |
| C35 | Beam-search tables describe the same candidate | the tables of both beams (opposite filling orders) | for all numbers of survivors; concrete selection witnesses | ThickToThin, ThinToThick |
| C36 | Thin-to-thick repair only adds plies | `repair_thin_to_thick` | invariant over all nodes of the beam | ThinToThick |
| C37 | Beam search keeps the best candidates | local / global pruning with NumPy sort, sentinel and NaN | selection lemmas | Selection |
| C38 | Ply-level pruning keeps the partial laminate feasible | `pruning_diso_contig_damtol`, last ply included | windows of the partial laminate; search invariant | Pruning, Search |
| C39 | The best design over the initial ply drop layouts is returned | the table of objectives and `argmin` with NaN | argmin lemma; witnesses | Assembly |
| C40 | Symmetric designs are assembled as palindromes of the right ply count | final assembly of symmetric panels | list lemmas | Assembly |
| C41 | Global ply drop layouts built from local ones are symmetric, nested and complete | `pdl_tools.py` (formatting, rules, global layouts) | induction over groups | PdlGlobal, PdlTools |
| C42 | Randomly generated initial layouts respect ply counts, covering and guide-based blending | `randomly_pdl_guide`, `create_initial_pdl(s)`; random choices and clock are universally quantified schedules | invariants for all schedules | MiddlePly, PdlCount, PdlIni, PdlInitial |
| C43 | sortAccording is a stable re-ordering following the reference order | `sortAccording`, `first` (binary search) | functional correctness | Sorting |
| C44 | Buckling factors are consistent between lamination parameter formats and homogeneous in the load | `buckling_factor*` with π² an arbitrary positive number | algebra on an ordered field | Buckling |
| C45 | Element-wise maximum of arrays | `max_arrays` | functional correctness | MaxArrays |
| C46 | Panel connectivity check accepts exactly connected structures | `MultiPanel.__init__` connectivity loop | closure = reachability | Boundaries, BoundariesIff |
| C47 | Repair steps walk through the panels of the blending strip | step tables of `ReducedMultiPanel` | induction over panels | Steps |
| C48 | Boundaries of the blending strip represent the structure's boundaries | reduced boundaries and their weights | sums over fibres | Boundaries |
| C49 | Panel weightings of the blending strip | panel weightings of the strip | exact formula and exact condition | Boundaries, PanelWeights |
| C50 | Partial lamination parameters of the plies add up to those of the laminate | `calc_delta_lampams` over the ply positions | telescoping sums against through-thickness integration | Moments |
| C51 | Objective function parameters are well formed | `ObjFunction` constructor | inversion | Objectives |
| C52 | Initial ply drop layouts read from a file and checked | `read_pdls_excel`, `check_pdls_ini` (the workbook is a list of sheets) | induction over the sheets | PdlGlobal |
| C53 | The tables of the beam search describe the same designs | the beam search of `BELLA_optimiser_one_pdl` | simulation invariant between tables and choices | Search, SearchAll |
| C54 | Asymmetric designs are assembled with each ply at the position it was optimised for | assembly of asymmetric panels | negative theorem for every laminate of three plies or more | Assembly |
| C55 | The best repaired design of a layout is returned with its own data | choice of the repaired design | argmin lemma; witness | Assembly |
| C56 | The flexural refinement as a whole keeps ply content, symmetry and lay-up rules | `repair_flexural` | composition of C31, C32 | RepairFlexural |
| C57 | The in-plane refinement terminates | `repair_membrane` | lexicographic variant; non-termination of the Abdalla variant | MembraneMore |
| C58 | Repair for balance and the 10% rule of Abdalla | `repair_10_Abdalla_ipo/no_ipo`; distance to the feasible region is an arbitrary function | partial-correctness invariants over fuel; non-termination for all fuels | RepairAbdalla |
| C59 | Repair of one laminate | `repair_ss` | composition of C25–C33, C56–C58; termination from C57 | OnePly, RepairSs, RepairTotal |
| C60 | Repair of the reference panel of a blending strip | `repair_reference_panel` | composition of C17, C18, C59; termination from C57 and C59 | OnePly, RepairReference, RunEnds |
| C61 | Repair of a blending strip | `repair_mp` | composition of C34, C36, C60; termination from C57 and C59 | OnePlyStrip, RepairMp, RepairMpFailure, RepairMpViolations, RunEnds |
| C62 | Optimisation of a structure for one ply drop layout | `BELLA_optimiser_one_pdl` as a whole | composition of C53, C40, C55, C61; termination from C57 and C59 | OneChecks, OnePdl, OnePdlFailure, OnePdlViolations, OnePlyStrip, RunEnds |
| C63 | Quantities accumulated by the beam search | `calc_delta_lampams2` and the accumulation of the search | sums over levels against C50 | SearchLampams |
| C64 | The whole optimisation returns a blended design | `BELLA_optimiser` as a whole | composition of C21, C22, C39, C42, C62; termination from C57 and C59 | MiddlePly, OnePlyStrip, Optimiser, RunEnds |
| C65 | Targets and weightings of a panel are filtered consistently with the guidelines | `Panel`: constructor, filters of targets and weightings, weight | case analysis over the flags; trigonometric vanishing over ℝ | Panels, PanelsVanish |
| C66 | Lamination-parameter weightings at each level of the search | level weightings of the beam search (`calc_mom_of_areas2`) | telescoping sums; witness for asymmetric laminates | LevelWeights |
| C67 | 10% rule of Abdalla: check and distance on lamination parameters | distance to the region of the 10% rule of Abdalla over the reals (`calc_distance_Abdalla`), lamination-parameter check | mixture description of the region, Cauchy-Schwarz type inequality for the ply shares, minimum over the sampled curves; witnesses for the violations | AbdallaDistance |
| C68 | Lamina properties and laminate stiffnesses | `Material.__init__`, stiffness formulas (exact arithmetic over an ordered field, theorems over the reals) | trigonometric identities per ply, summation over the plies, completion of squares | Material |
| C69 | Orthotropy parameters and penalties | `ipo_oopo.py` (all functions) | 3x3 matrix algebra (cofactor inverse, Schur complement of a positive definite form), irrationality of sqrt 3 for the zero set | Orthotropy |
| C70 | Optimiser parameters | `Parameters.__init__` with Python objects as arguments (`PyObj`) | inversion of the chain of checks in both directions; early stop of the layout search | Parameters |
| C71 | Multi-panel structure | `MultiPanel.__init__` and its functions on panels | inversion of the constructor; folds for extrema; counting of boundary ends for the neighbour lists; acceptance by equivalence with the graph conditions | MultiPanel |
| C72 | Results written and returned by a complete run | end of `BELLA_optimiser`, `save_result_BELLAs`, `save_result_BELLA_one_pdl`, the tables of `BELLA_Results` | inversion of a run that ends, then C64, C62 for the design; counting for the ply counts | Report, ReportExample |
| C73 | Runs from ply-drop layouts read from a file | `BELLA_optimiser` with a file of layouts, `read_pdls_excel`, `check_pdls_ini` | C52 for the checks, width from the final array, then composition as for C64 and C72; concrete runs for the violations | OnePlyStrip, ReportFile, ReportFileExample, ReportFileOdd |
| C74 | Ply drops of the groups of an initial layout are spaced, the neighbouring groups included | `groupSpacing`, `drawPdl`, `mirrorAfter`, `randomlyPdlGuide`, `symGroups`, `asymGroups`, `createInitialPdl` (Model/PdlIni.lean) | penalty is shown equal to `Spec.groupPenalty` by induction over the boundaries and to depend only on the places of the drops (so that renumbering plies does not matter); induction over the groups with the group before as parameter; counterexamples computed by the kernel | GroupSpacing |
| C75 | LAYLA's pruning keeps exactly the orientations that respect the rules | `laylaPruning`, `laylaSimpBot` (Model/LaylaPruning.lean) | refinement: equal to the pruning of BELLA given all the plies (only the last `n_contig` matter), then the theorems of C38, induction over the plies of the half laminate; counterexamples for all inputs where the code raises, computed by the kernel otherwise | LaylaPruning |
| C76 | LAYLA's constraint objects are well formed | `mkLaylaConstraints`, `laylaPercentages` (Model/LaylaConstraints.lean) | the constructor is compared test by test with that of BELLA (C14), so that the theorems of C14 carry over; linear arithmetic for the percentages; counterexamples for all the inputs concerned | LaylaConstraints |
| C77 | LAYLA's parameters and weightings are well formed | `mkLaylaParams`, `laylaWeights`, `laylaPart`, `laylaFilterTarget` (Model/LaylaParameters.lean) | the constructor inverted test by test; the weightings computed component by component for the 32 combinations of guidelines, then sums over the twelve components (all rational values); counterexamples for all the inputs concerned, and computed by the kernel | LaylaParameters |
| C78 | LAYLA's search returns the best feasible design found | `laylaBeam`, `laylaGroups`, `laylaOuterStep`, `laylaOptimiser` (Model/LaylaSearch.lean) | an invariant of the nodes (plies placed, orientations kept, ply counts, lamination parameters, bound) carried over branching, levels, groups and outer steps by induction; C75 for the rules; specification of argmin and of the deletions (C37) for the selections | LaylaSearch |
| C79 | Without effective node limits, the repair of a blending strip is exhaustive | `repairThickToThin`, `repairThinToThick`, `stripSpacing` (Model/ThickToThin.lean, Model/ThinToThick.lean, Model/StripBeam.lean) against the plans of Spec/StripRepair.lean | invariant of the beam search: the nodes kept after each step are, up to duplicates, exactly the prefixes of plans; pruning discards nothing when the limits bound the number of nodes; the violation is computed by the kernel | Exhaustive |
| C80 | Violations of the guidelines counted ply by ply | `calcNViolaDiso`, `calcNViolaContig`, `calcNPliesPerAngle` (Model/ViolaCount.lean) against Spec/Levels.lean | induction over the levels with the violations of the bottom and top parts as invariant; lemma on the violations of a laminate put together from several parts | ViolaCount |
| C81 | Subset sums | `subsetNext`, `subsetSumCount`, `subsetSumFind`, `subsetSumNext` with the calls of `subset_sum_next_test`, `subsetSumTable`, `subsetSumTableToList` (Model/SubsetSum.lean) against Spec/Subsets.lean and Mathlib's `List.sublists` | binary value of the subset for the enumeration; the successive calls of subset_sum_next as one depth-first search, induction over the values left; invariant of the table (every entry starts a chain of entries of earlier weights) | SubsetSum |
| C82 | Helper functions of the repair | `calcDeltaAngle`, `calcDistanciation`, `objectiveRepair`, `isEqualStack` (Model/RepairTools.lean) | case analysis on the half of the laminate; sorted lists of the same plies are equal | RepairTools |
| C83 | Lay-up rules in the beam search for asymmetric laminates | the pruning and beam search of `BELLA_optimiser_one_pdl` for asymmetric laminates | invariant of the search: the choices at even and odd positions form the two halves; completeness by counting nodes; counterexamples for all even ply counts, others computed by the kernel | SearchAsym |
| C84 | Input files describe the problem that was saved | `save_set_up.py` (sheets Constraints, Materials, Objective function, Multipanel, Panels) and the readers of `run_BELLA_from_input_file_*.py` | the arguments read from a saved sheet are computed label by label; the constructors are inverted (C14, C65, C71) and applied again; the filters of C65 are idempotent by their closed form | InputFile |
| C85 | Success rates and number of evaluations reported | the counters of `optimiser_with_one_pdl.py` (100, 210, 409-428, 505-528) | each outcome (success, step) of `repair_mp` is shown equivalent to passing the repairs; the folds over the designs are counted; the candidates are summed by induction on the nodes and levels, bounded with the pruning limits | SuccessRates, SuccessRatesExample |
| C86 | Moments of area, weightings and ply contributions in LAYLA's search | `laylaMoms`, `laylaCummul`, `laylaGroupLoop`, `laylaAreas`, `laylaLevelWeights`, `laylaWeightTable`, `laylaDelta` (`Model/LaylaMoments.lean`): the loops of `calc_mom_of_areas` (LAYLA) with the counters of groups, the weightings and contributions of `LAYLA_optimiser` | invariant of the loop over the groups (prefix sums); one level of the search adds exactly the plies of the specification `Spec86.designed`, telescoping; contributions reduced to the through-thickness integrals of C50; violation for every n ≥ 3 by a laminate with one distinguished ply | LaylaMoments |
| C87 | LAYLA's penalties are those of the laminates | `laylaPenalty10`, `laylaPenaltyBal`, `laylaFactors`, `laylaFinalTen`, `laylaFinalObj` (`Model/LaylaPenalties.lean`), `laylaBranch` (`Model/LaylaSearch.lean`); the missing function `calc_penalty_ipo_oopo_ss` is a parameter | penalties computed from indices reduced to the specifications `Spec.missing` and `Spec.imbalance` on orientations; factors followed through the branching of a node, the repair and the local pruning; violations by evaluated nodes and, for the exception, for all designs | LaylaPenalties |
| C88 | The saved set-ups of LAYLA and BELLA are the ones used | `saveLaylaConstraints`, `saveLaylaParams` (`Model/LaylaInputFile.lean`), `saveParams` (`Model/ParametersSheet.lean`); nothing in the repository reads these sheets, so what they say is the specification `Spec.laylaConsOf`, `Spec.laylaParsOf`, `Spec.parsOf`, cell by cell | the arguments recorded are computed label by label; the characterisations of the constructors (C76, C77) are applied backwards; the percentages are those given or their maximum, so that recomputing them changes nothing | LaylaInputFile, ParametersSheet |
| C89 | The buckling factor of a stacking sequence is that of the laminate | `bucklingFactorSS` (`Model/BucklingSS.lean`), with `bucklingFactor` and `mkMaterial`; `calc_lampam` (absent) is a parameter that gives the lamination parameters of the specification (`Spec.IsLampam`) | the stiffnesses are read as the energies of cylindrical bending and of twist (C68's ply-by-ply sums), so that each mode is a Rayleigh quotient; positivity from the energies of the plies; reversal by reflecting the sum over the plies | BucklingSS |
| C90 | Numbers of designs reported by LAYLA | the counters of `beam_search`, of the outer steps and the tables of `LAYLA_Results` (`Model/LaylaCounters.lean`) | each branching at the last level is inverted into the list of designs, the outcomes of their repairs and the bounds of the leaves (factors of at least 1 keep the failed ones at 1e10 or more); induction on the nodes, levels, groups and outer steps | LaylaCounters |
| C91 | LAYLA: laminates that must not satisfy the 10% rule | the search with the option `not_constraints` (`Model/LaylaNot.lean`): the limits, the test of each child and the searches of the groups of a symmetric laminate; the draw is a parameter | invariant on the nodes of every level and group: the ply counts are the numbers of plies of the half laminate, the middle ply counting for one half, and the last child passed the test; the counts doubled are those of the mirrored laminate; arithmetic of the two ceilings | LaylaNot |

## 6. Trusted base

* Lean 4.33.0's kernel. No axioms are added; no `native_decide`, no `bv_decide`, no unfinished proofs. Each theorem depends on at most
  `propext`, `Classical.choice` and `Quot.sound` (check with `#print axioms`; `vcheck` replays every module).
* The hand translation from Python to Lean (comments of the definitions give file and lines and say where it simplifies), and
  the semantics given above to NumPy primitives (`np.unique`, `argmin`, `argsort`, `delete`, slices, broadcasting).
* The idealisation of floats by exact arithmetic; the parameters standing for `calc_lampam`, the Abdalla distance, random numbers and the clock.
* The mutation tests of `seeded/LOG.jsonl` are evidence that the theorems are sensitive to realistic bugs; they are not part of the proofs.
