{
 "C01": [
  "`is_diso` on ℤ",
  "`omega` against the distance modulo 180 (`Spec.PlyAngle`)"
 ],
 "C02": [
  "`is_diso_ss` loop with early return",
  "induction over the laminate; rule 1 recorded as a negative theorem"
 ],
 "C03": [
  "the violation vectors and sums for one and several laminates",
  "induction; equivalence with C02's specification"
 ],
 "C04": [
  "the five hand-unrolled loops of `is_contig`",
  "each loop ⇔ no window of n+1 equal plies; closed under reversal and infixes"
 ],
 "C05": [
  "`calc_contig_vector`, `calc_matrix_viol_contig`, penalties",
  "counting windows by induction"
 ],
 "C06": [
  "`is_balanced`, `calc_penalty_bal`",
  "counts; permutation invariance; bounds on ℚ"
 ],
 "C07": [
  "`is_dam_tol` with index errors",
  "case analysis on both faces"
 ],
 "C08": [
  "all ply-count branches of `is_ten_percent_rule`",
  "arithmetic on ℚ; witness for the wrong middle ply of the queue branch"
 ],
 "C09": [
  "`calc_penalty_10_ss`, `calc_penalty_10_pc`",
  "arithmetic on ℚ, zero sets"
 ],
 "C10": [
  "`calc_penalty_spacing_1ss`, `calc_penalty_spacing`, `is_same_pdl`",
  "induction on the list of drop positions"
 ],
 "C11": [
  "`check_lay_up_rules`, `check_ply_drop_rules` as `Except`",
  "composition of C02–C10; first violated rule"
 ],
 "C12": [
  "row filters with their delete loops (both junction orders)",
  "filter = specification filter, companion rows included"
 ],
 "C13": [
  "same definitions as C12",
  "compositionality of windows across a junction"
 ],
 "C14": [
  "the `Constraints` constructor as a validation pipeline",
  "inversion of the pipeline, invariants of the record"
 ],
 "C15": [
  "`ReducedMultiPanel` (np.unique with inverse), reduce / extend",
  "sortedness, index maps, exact failure condition"
 ],
 "C16": [
  "choice of the reference panel",
  "`argmax`-style search over a sorted list"
 ],
 "C17": [
  "table conversions of `format_pdl.py`",
  "induction on the layout; -1 as an angle is a witness"
 ],
 "C18": [
  "position conversions of `format_pdl.py`",
  "loop invariants; duplicate positions are a witness"
 ],
 "C19": [
  "`calc_ply_order`, `calc_levels`",
  "permutation proof"
 ],
 "C20": [
  "`calc_mom_of_areas` (BELLA and LAYLA) on ℚ",
  "telescoping sums for all ply counts"
 ],
 "C21": [
  "`divide_panels`, `divide_laminate_sym/asym`, `forbidden_ply_counts`",
  "arithmetic with integer division; minimal group number"
 ],
 "C22": [
  "the drop distribution loop of `divide_panels` (half-to-even rounding)",
  "loop invariant and variant"
 ],
 "C23": [
  "`calc_obj_one_panel`, `calc_obj_multi_panel`, LAYLA objectives",
  "order reasoning on ℚ"
 ],
 "C24": [
  "`calc_mini_10`",
  "ceil arithmetic, iff with the shares"
 ],
 "C25": [
  "`repair_10_bal_2` (all its passes)",
  "loop invariants through every pass"
 ],
 "C26": [
  "same",
  "fixpoint proof; odd middle ply witness"
 ],
 "C27": [
  "`repair_diso_contig(_list)` and the four from-inside / from-outside searches with their permutations",
  "search invariant: multiset of plies"
 ],
 "C28": [
  "same",
  "window invariants per step; witnesses for the three gaps"
 ],
 "C29": [
  "`order_plies_to_test`",
  "sorting and deduplication"
 ],
 "C30": [
  "`smallest_row`",
  "lexicographic order, independent of the order of the rows"
 ],
 "C31": [
  "`repair_flexural_2`, `repair_flexural_3`",
  "loop invariants; objective is an arbitrary function of the laminate"
 ],
 "C32": [
  "`repair_flexural_1` (blocks, potential swaps)",
  "loop invariants; witnesses"
 ],
 "C33": [
  "`repair_membrane` and its four variants",
  "loop invariants over candidate lists"
 ],
 "C34": [
  "`repair_thick_to_thin`: nodes of the beam, pruning tables",
  "invariant over all nodes of the beam"
 ],
 "C35": [
  "the tables of both beams (opposite filling orders)",
  "for all numbers of survivors; concrete selection witnesses"
 ],
 "C36": [
  "`repair_thin_to_thick`",
  "invariant over all nodes of the beam"
 ],
 "C37": [
  "local / global pruning with NumPy sort, sentinel and NaN",
  "selection lemmas"
 ],
 "C38": [
  "`pruning_diso_contig_damtol`, last ply included",
  "windows of the partial laminate; search invariant"
 ],
 "C39": [
  "the table of objectives and `argmin` with NaN",
  "argmin lemma; witnesses"
 ],
 "C40": [
  "final assembly of symmetric panels",
  "list lemmas"
 ],
 "C41": [
  "`pdl_tools.py` (formatting, rules, global layouts)",
  "induction over groups"
 ],
 "C42": [
  "`randomly_pdl_guide`, `create_initial_pdl(s)`; random choices and clock are universally quantified schedules",
  "invariants for all schedules"
 ],
 "C43": [
  "`sortAccording`, `first` (binary search)",
  "functional correctness"
 ],
 "C44": [
  "`buckling_factor*` with π² an arbitrary positive number",
  "algebra on an ordered field"
 ],
 "C45": [
  "`max_arrays`",
  "functional correctness"
 ],
 "C46": [
  "`MultiPanel.__init__` connectivity loop",
  "closure = reachability"
 ],
 "C47": [
  "step tables of `ReducedMultiPanel`",
  "induction over panels"
 ],
 "C48": [
  "reduced boundaries and their weights",
  "sums over fibres"
 ],
 "C49": [
  "panel weightings of the strip",
  "exact formula and exact condition"
 ],
 "C50": [
  "`calc_delta_lampams` over the ply positions",
  "telescoping sums against through-thickness integration"
 ],
 "C51": [
  "`ObjFunction` constructor",
  "inversion"
 ],
 "C52": [
  "`read_pdls_excel`, `check_pdls_ini` (the workbook is a list of sheets)",
  "induction over the sheets"
 ],
 "C53": [
  "the beam search of `BELLA_optimiser_one_pdl`",
  "simulation invariant between tables and choices"
 ],
 "C54": [
  "assembly of asymmetric panels",
  "negative theorem for every laminate of three plies or more"
 ],
 "C55": [
  "choice of the repaired design",
  "argmin lemma; witness"
 ],
 "C56": [
  "`repair_flexural`",
  "composition of C31, C32"
 ],
 "C57": [
  "`repair_membrane`",
  "lexicographic variant; non-termination of the Abdalla variant"
 ],
 "C58": [
  "`repair_10_Abdalla_ipo/no_ipo`; distance to the feasible region is an arbitrary function",
  "partial-correctness invariants over fuel; non-termination for all fuels"
 ],
 "C59": [
  "`repair_ss`",
  "composition of C25–C33, C56–C58; termination from C57"
 ],
 "C60": [
  "`repair_reference_panel`",
  "composition of C17, C18, C59; termination from C57 and C59"
 ],
 "C61": [
  "`repair_mp`",
  "composition of C34, C36, C60; termination from C57 and C59"
 ],
 "C62": [
  "`BELLA_optimiser_one_pdl` as a whole",
  "composition of C53, C40, C55, C61; termination from C57 and C59"
 ],
 "C63": [
  "`calc_delta_lampams2` and the accumulation of the search",
  "sums over levels against C50"
 ],
 "C64": [
  "`BELLA_optimiser` as a whole",
  "composition of C21, C22, C39, C42, C62; termination from C57 and C59"
 ],
 "C65": [
  "`Panel`: constructor, filters of targets and weightings, weight",
  "case analysis over the flags; trigonometric vanishing over ℝ"
 ],
 "C66": [
  "level weightings of the beam search (`calc_mom_of_areas2`)",
  "telescoping sums; witness for asymmetric laminates"
 ],
 "C67": [
  "distance to the region of the 10% rule of Abdalla over the reals (`calc_distance_Abdalla`), lamination-parameter check",
  "mixture description of the region, Cauchy-Schwarz type inequality for the ply shares, minimum over the sampled curves; witnesses for the violations"
 ],
 "C68": [
  "`Material.__init__`, stiffness formulas (exact arithmetic over an ordered field, theorems over the reals)",
  "trigonometric identities per ply, summation over the plies, completion of squares"
 ],
 "C69": [
  "`ipo_oopo.py` (all functions)",
  "3x3 matrix algebra (cofactor inverse, Schur complement of a positive definite form), irrationality of sqrt 3 for the zero set"
 ],
 "C70": [
  "`Parameters.__init__` with Python objects as arguments (`PyObj`)",
  "inversion of the chain of checks in both directions; early stop of the layout search"
 ],
 "C71": [
  "`MultiPanel.__init__` and its functions on panels",
  "inversion of the constructor; folds for extrema; counting of boundary ends for the neighbour lists; acceptance by equivalence with the graph conditions"
 ],
 "C72": [
  "end of `BELLA_optimiser`, `save_result_BELLAs`, `save_result_BELLA_one_pdl`, the tables of `BELLA_Results`",
  "inversion of a run that ends, then C64, C62 for the design; counting for the ply counts"
 ],
 "C73": [
  "`BELLA_optimiser` with a file of layouts, `read_pdls_excel`, `check_pdls_ini`",
  "C52 for the checks, width from the final array, then composition as for C64 and C72; concrete runs for the violations"
 ],
 "C74": [
  "`groupSpacing`, `drawPdl`, `mirrorAfter`, `randomlyPdlGuide`, `symGroups`, `asymGroups`, `createInitialPdl` (Model/PdlIni.lean)",
  "penalty is shown equal to `Spec.groupPenalty` by induction over the boundaries and to depend only on the places of the drops (so that renumbering plies does not matter); induction over the groups with the group before as parameter; counterexamples computed by the kernel"
 ],
 "C75": [
  "`laylaPruning`, `laylaSimpBot` (Model/LaylaPruning.lean)",
  "refinement: equal to the pruning of BELLA given all the plies (only the last `n_contig` matter), then the theorems of C38, induction over the plies of the half laminate; counterexamples for all inputs where the code raises, computed by the kernel otherwise"
 ],
 "C76": [
  "`mkLaylaConstraints`, `laylaPercentages` (Model/LaylaConstraints.lean)",
  "the constructor is compared test by test with that of BELLA (C14), so that the theorems of C14 carry over; linear arithmetic for the percentages; counterexamples for all the inputs concerned"
 ],
 "C77": [
  "`mkLaylaParams`, `laylaWeights`, `laylaPart`, `laylaFilterTarget` (Model/LaylaParameters.lean)",
  "the constructor inverted test by test; the weightings computed component by component for the 32 combinations of guidelines, then sums over the twelve components (all rational values); counterexamples for all the inputs concerned, and computed by the kernel"
 ],
 "C78": [
  "`laylaBeam`, `laylaGroups`, `laylaOuterStep`, `laylaOptimiser` (Model/LaylaSearch.lean)",
  "an invariant of the nodes (plies placed, orientations kept, ply counts, lamination parameters, bound) carried over branching, levels, groups and outer steps by induction; C75 for the rules; specification of argmin and of the deletions (C37) for the selections"
 ],
 "C79": [
  "`repairThickToThin`, `repairThinToThick`, `stripSpacing` (Model/ThickToThin.lean, Model/ThinToThick.lean, Model/StripBeam.lean) against the plans of Spec/StripRepair.lean",
  "invariant of the beam search: the nodes kept after each step are, up to duplicates, exactly the prefixes of plans; pruning discards nothing when the limits bound the number of nodes; the violation is computed by the kernel"
 ],
 "C80": [
  "`calcNViolaDiso`, `calcNViolaContig`, `calcNPliesPerAngle` (Model/ViolaCount.lean) against Spec/Levels.lean",
  "induction over the levels with the violations of the bottom and top parts as invariant; lemma on the violations of a laminate put together from several parts"
 ],
 "C81": [
  "`subsetNext`, `subsetSumCount`, `subsetSumFind`, `subsetSumNext` with the calls of `subset_sum_next_test`, `subsetSumTable`, `subsetSumTableToList` (Model/SubsetSum.lean) against Spec/Subsets.lean and Mathlib's `List.sublists`",
  "binary value of the subset for the enumeration; the successive calls of subset_sum_next as one depth-first search, induction over the values left; invariant of the table (every entry starts a chain of entries of earlier weights)"
 ],
 "C82": [
  "`calcDeltaAngle`, `calcDistanciation`, `objectiveRepair`, `isEqualStack` (Model/RepairTools.lean)",
  "case analysis on the half of the laminate; sorted lists of the same plies are equal"
 ],
 "C83": [
  "the pruning and beam search of `BELLA_optimiser_one_pdl` for asymmetric laminates",
  "invariant of the search: the choices at even and odd positions form the two halves; completeness by counting nodes; counterexamples for all even ply counts, others computed by the kernel"
 ],
 "C84": [
  "`save_set_up.py` (sheets Constraints, Materials, Objective function, Multipanel, Panels) and the readers of `run_BELLA_from_input_file_*.py`",
  "the arguments read from a saved sheet are computed label by label; the constructors are inverted (C14, C65, C71) and applied again; the filters of C65 are idempotent by their closed form"
 ],
 "C85": [
  "the counters of `optimiser_with_one_pdl.py` (100, 210, 409-428, 505-528)",
  "each outcome (success, step) of `repair_mp` is shown equivalent to passing the repairs; the folds over the designs are counted; the candidates are summed by induction on the nodes and levels, bounded with the pruning limits"
 ],
 "C86": [
  "`laylaMoms`, `laylaCummul`, `laylaGroupLoop`, `laylaAreas`, `laylaLevelWeights`, `laylaWeightTable`, `laylaDelta` (`Model/LaylaMoments.lean`): the loops of `calc_mom_of_areas` (LAYLA) with the counters of groups, the weightings and contributions of `LAYLA_optimiser`",
  "invariant of the loop over the groups (prefix sums); one level of the search adds exactly the plies of the specification `Spec86.designed`, telescoping; contributions reduced to the through-thickness integrals of C50; violation for every n ≥ 3 by a laminate with one distinguished ply"
 ],
 "C87": [
  "`laylaPenalty10`, `laylaPenaltyBal`, `laylaFactors`, `laylaFinalTen`, `laylaFinalObj` (`Model/LaylaPenalties.lean`), `laylaBranch` (`Model/LaylaSearch.lean`); the missing function `calc_penalty_ipo_oopo_ss` is a parameter",
  "penalties computed from indices reduced to the specifications `Spec.missing` and `Spec.imbalance` on orientations; factors followed through the branching of a node, the repair and the local pruning; violations by evaluated nodes and, for the exception, for all designs"
 ],
 "C88": [
  "`saveLaylaConstraints`, `saveLaylaParams` (`Model/LaylaInputFile.lean`), `saveParams` (`Model/ParametersSheet.lean`); nothing in the repository reads these sheets, so what they say is the specification `Spec.laylaConsOf`, `Spec.laylaParsOf`, `Spec.parsOf`, cell by cell",
  "the arguments recorded are computed label by label; the characterisations of the constructors (C76, C77) are applied backwards; the percentages are those given or their maximum, so that recomputing them changes nothing"
 ],
 "C89": [
  "`bucklingFactorSS` (`Model/BucklingSS.lean`), with `bucklingFactor` and `mkMaterial`; `calc_lampam` (absent) is a parameter that gives the lamination parameters of the specification (`Spec.IsLampam`)",
  "the stiffnesses are read as the energies of cylindrical bending and of twist (C68's ply-by-ply sums), so that each mode is a Rayleigh quotient; positivity from the energies of the plies; reversal by reflecting the sum over the plies"
 ],
 "C90": [
  "the counters of `beam_search`, of the outer steps and the tables of `LAYLA_Results` (`Model/LaylaCounters.lean`)",
  "each branching at the last level is inverted into the list of designs, the outcomes of their repairs and the bounds of the leaves (factors of at least 1 keep the failed ones at 1e10 or more); induction on the nodes, levels, groups and outer steps"
 ],
 "C91": [
  "the search with the option `not_constraints` (`Model/LaylaNot.lean`): the limits, the test of each child and the searches of the groups of a symmetric laminate; the draw is a parameter",
  "invariant on the nodes of every level and group: the ply counts are the numbers of plies of the half laminate, the middle ply counting for one half, and the last child passed the test; the counts doubled are those of the mirrored laminate; arithmetic of the two ceilings"
 ]
}