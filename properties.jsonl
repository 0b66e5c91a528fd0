{"id": "C01", "title": "Pairwise disorientation check measures the angle between fibre directions", "statement": "is_diso(a1, a2, d) returns True exactly when the smallest angle between the two (undirected) fibre directions a1 and a2 is at most d degrees; it does not depend on the order of the two plies, nor on a common 90-degree symmetry such as changing the sign of both angles.", "quantifier": "all pairs of ply angles in (-90, 90] and every threshold d", "why_tests_cant": "A test samples a few angle pairs; the wrap-around at +-90 must be right for every pair.", "anchors": ["src/guidelines/disorientation.py:is_diso", "src/RELAY/repair_tools.py:calc_delta_angle"]}
{"id": "C02", "title": "Laminate disorientation check accepts exactly the laminates whose neighbouring plies are within delta_angle", "statement": "is_diso_ss(ss, delta_angle, dam_tol=False) is True iff every pair of neighbouring plies satisfies the disorientation limit; with damage tolerance rules 2 and 3 (two protected plies on each face) it is True iff every neighbouring pair except the two surface pairs satisfies it; the verdict is unchanged by turning the laminate upside down. (With damage-tolerance rule 1 the code checks nothing at all - recorded as a violation.)", "quantifier": "all stacking sequences of any length, thresholds and damage tolerance rules", "why_tests_cant": "Needs all lengths and all positions of the offending pair.", "anchors": ["src/guidelines/disorientation.py:is_diso_ss"]}
{"id": "C03", "title": "Disorientation violation counts are exact and vanish exactly on compliant laminates", "statement": "calc_n_penalty_diso_ss / calc_number_violations_diso_mp return, for each laminate, the number of neighbouring pairs beyond delta_angle (surface pairs excluded under damage tolerance rules 2 and 3); the count is zero exactly when is_diso_ss accepts the laminate under the same rules, and never exceeds the number of neighbouring pairs.", "quantifier": "all laminates and constraint settings with rule 2/3 or no damage tolerance", "why_tests_cant": "Counting correctness is universally quantified over laminates.", "anchors": ["src/guidelines/disorientation.py:calc_n_penalty_diso_ss", "src/guidelines/disorientation.py:calc_number_violations_diso_ss"]}
{"id": "C04", "title": "Contiguity check accepts exactly laminates without a block of more than n_contig equal plies", "statement": "For n_contig in 2..6, is_contig(ss, n_contig) is True iff no n_contig + 1 consecutive plies have the same orientation; the answer is the same for the reversed laminate, is inherited by every contiguous part of an accepted laminate, and is monotone in n_contig.", "quantifier": "all laminates of any length, all supported n_contig", "why_tests_cant": "Hand-unrolled comparisons per n_contig; a slip in any index would only show on particular stacks.", "anchors": ["src/guidelines/contiguity.py:is_contig"]}
{"id": "C05", "title": "Contiguity violation measures vanish exactly on compliant laminates", "statement": "calc_penalty_contig_ss / calc_penalty_contig_mp / calc_matrix_viol_contig report zero exactly when the laminate (with the surface plies removed under damage tolerance rules 2/3) satisfies is_contig, and the count equals the number of windows of n_contig + 1 equal plies.", "quantifier": "all laminates, all supported n_contig", "why_tests_cant": "Universally quantified over laminates.", "anchors": ["src/guidelines/contiguity.py:calc_penalty_contig_ss", "src/guidelines/contiguity.py:calc_matrix_viol_contig"]}
{"id": "C06", "title": "Balance check and balance penalty agree with the definition", "statement": "is_balanced(ss) is True iff every orientation other than 0 and 90 occurs as often as its opposite; the answer depends only on ply counts (any permutation of the plies gives the same answer); calc_penalty_bal is between 0 and 1 (times the cumulated areas) and is zero exactly for balanced ply counts.", "quantifier": "all laminates over the admissible angles, all ply-count vectors", "why_tests_cant": "Holds for all multisets of plies.", "anchors": ["src/guidelines/balance.py:is_balanced", "src/guidelines/balance.py:calc_penalty_bal"]}
{"id": "C07", "title": "Damage tolerance check matches the rule definitions", "statement": "is_dam_tol accepts a laminate under rule 1 iff both faces carry a +-45 ply, under rule 2 iff both faces carry a [+-45,-+45] pair, under rule 3 iff the two outer plies on each face are +-45; acceptance is unchanged by reversing the laminate, and rule 2 implies rule 3 implies rule 1.", "quantifier": "all laminates with at least two plies, rules 1-3", "why_tests_cant": "All laminates, all combinations of surface plies.", "anchors": ["src/guidelines/dam_tol.py:is_dam_tol"]}
{"id": "C08", "title": "10% rule check accepts exactly laminates with the minimum ply fractions", "statement": "is_ten_percent_rule (ply-count variant) is True iff the share of 0, 90, +45, -45 and +-45 plies of the complete laminate is at least the requested percentages (up to the 1e-15 tolerance on the stack variant); it depends on counts only. With a ply queue, the queue plies are counted once (twice for symmetric laminates). (For symmetric laminates with an odd ply count and a ply queue the code uses ply number 2 instead of the middle ply - recorded as a violation.)", "quantifier": "all laminates, all percentages, queues", "why_tests_cant": "All laminates and queues.", "anchors": ["src/guidelines/ten_percent_rule.py:is_ten_percent_rule", "src/guidelines/ten_percent_rule.py:calc_penalty_10_ss", "src/guidelines/ten_percent_rule.py:calc_penalty_10_pc"]}
{"id": "C09", "title": "10% rule penalty is zero exactly on compliant ply counts", "statement": "calc_penalty_10_pc is non-negative and is zero exactly when the counts reach all requested percentages; it equals the sum of the missing shares of the requested directions, and replacing a ply at an angle without requested share by any other ply never increases it.", "quantifier": "all ply-count vectors with at least one ply and all percentages", "why_tests_cant": "Arithmetic identity over all count vectors.", "anchors": ["src/guidelines/ten_percent_rule.py:calc_penalty_10_pc"]}
{"id": "C10", "title": "Ply drop spacing penalty is zero exactly when ply drops are far enough apart", "statement": "calc_penalty_spacing_1ss(ss, min_drop) is non-negative, and zero iff between any two ply drops there are at least min_drop plies; it is unchanged by reversing the layout and can only grow with min_drop.", "quantifier": "all layouts (lists with -1 for drops) and all min_drop", "why_tests_cant": "All positions of drops in layouts of any size.", "anchors": ["src/guidelines/ply_drop_spacing.py:calc_penalty_spacing_1ss"]}
{"id": "C11", "title": "Stacking sequence rule checker accepts exactly the rule-abiding laminates", "statement": "check_lay_up_rules(ss, constraints) returns without exception iff the laminate meets every enabled guideline (ply count, damage tolerance, balance, disorientation, contiguity, 10% rule), and otherwise reports the first violated rule in the fixed order. (Violated: under damage tolerance rule 1 disorientation is not tested; with two covering plies the table checker does not look at the second one.)", "quantifier": "all laminates and constraint sets (with calc_lampam abstract)", "why_tests_cant": "Every combination of rules and laminates.", "anchors": ["src/guidelines/one_stack.py:check_lay_up_rules"]}
{"id": "C12", "title": "Candidate filtering keeps exactly the admissible candidates and keeps companion rows aligned", "statement": "internal_contig / internal_diso_contig return exactly the candidate sub-laminates meeting contiguity (and disorientation), in order, with the companion array filtered to the same rows; external_diso_contig returns exactly the candidates whose junction with the already designed plies is admissible, companion rows aligned. (external_contig leaves the companion array unfiltered - recorded as a violation.)", "quantifier": "all candidate tables (any number of rows and plies) and all designed parts", "why_tests_cant": "All tables and all junction positions.", "anchors": ["src/guidelines/internal_diso_contig.py:internal_diso_contig", "src/guidelines/internal_contig.py:internal_contig", "src/guidelines/external_diso_contig.py:external_diso_contig", "src/guidelines/external_contig.py:external_contig"]}
{"id": "C13", "title": "Locally filtered candidates give globally feasible laminates", "statement": "If the designed plies satisfy contiguity and disorientation, and a candidate passes both the internal and the external filter with the last n_contig designed plies (at most 6), then the concatenated laminate satisfies contiguity and disorientation.", "quantifier": "all designed parts, all candidates of length at least n_contig, n_contig in 2..6", "why_tests_cant": "Compositional claim over unbounded laminates.", "anchors": ["src/guidelines/external_diso_contig.py:external_diso_contig", "src/guidelines/internal_diso_contig.py:internal_diso_contig"]}
{"id": "C14", "title": "Every Constraints object that can be built is well formed", "statement": "Whenever Constraints(...) returns, the set of angles is sorted without duplicates in (-90, 90], contains -theta for every theta different from 90, ind_angles_dict maps each angle (and -90) to its own position, the ply percentages are fractions between 0 and 1 (all zero when the rule is off), damage tolerance implies covering with the right number of covering plies. (Violated: percentages adding up to more than 100% are accepted, n_contig outside 2..6 is accepted although is_contig then raises, and a minimum of +45 plies is dropped when a larger combined minimum is requested.)", "quantifier": "all constructor arguments", "why_tests_cant": "Ranges over all argument combinations.", "anchors": ["src/BELLA/constraints.py:Constraints"]}
{"id": "C15", "title": "Reduction to the blending strip loses no panel information", "statement": "In the reduced multi-panel, ply counts strictly increase; every panel of the structure is represented by a reduced panel with the same ply count; extending a reduced layout and reducing it again is the identity, and extending gives every panel its representative's row; guide-based blending data with equal rows for equal ply counts survive reduce-then-extend. For symmetric laminates the construction raises an exception if and only if a panel with an odd ply count is thinner than a panel with an even one (given the other inputs are acceptable).", "quantifier": "all lists of panel ply counts and layouts", "why_tests_cant": "All panel sets.", "anchors": ["src/BELLA/reduced_multipanels.py:ReducedMultiPanel", "src/BELLA/format_pdl.py:reduce_for_guide_based_blending", "src/BELLA/format_pdl.py:extend_after_guide_based_blending"]}
{"id": "C16", "title": "The reference panel is the panel requested", "statement": "ReducedMultiPanel picks as reference the first reduced panel whose ply count is at least n_plies_ref_panel (thinnest if the request is below all, thickest if above all).", "quantifier": "all ply-count lists and requests", "why_tests_cant": "All lists.", "anchors": ["src/BELLA/reduced_multipanels.py:ReducedMultiPanel"]}
{"id": "C17", "title": "Stacking sequence tables and stacking sequences convert back and forth", "statement": "convert_ss_to_sst followed by convert_sst_to_ss gives back each panel's plies when the panels are sub-laminates selected by the ply drop layout of the guide; converted tables have -1 exactly at the layout's drops; each panel's ply count is the layout length minus its drops. This holds for laminates without the value -1. (Violated: -1 is accepted as a fibre angle, and plies at -1 degrees are lost in the conversion.)", "quantifier": "all guides and ply drop layouts", "why_tests_cant": "All layouts.", "anchors": ["src/BELLA/format_pdl.py:convert_sst_to_ss", "src/BELLA/format_pdl.py:convert_ss_guide_to_sst", "src/BELLA/format_pdl.py:convert_ss_to_sst"]}
{"id": "C18", "title": "Ply position conversions point at the same ply", "statement": "pos_in_ss_ref_to_pos_in_sst returns for each requested position of the reference laminate the row-table position holding that ply; pos_in_sst_to_pos_in_panel returns for each non-dropped table position its position within the panel's laminate; composing the two on the same panel is the identity. (Violated: a position asked for twice loses every later position.)", "quantifier": "all layouts, all lists of positions", "why_tests_cant": "All layouts and positions.", "anchors": ["src/BELLA/format_pdl.py:pos_in_ss_ref_to_pos_in_sst", "src/BELLA/format_pdl.py:pos_in_sst_to_pos_in_panel"]}
{"id": "C19", "title": "Every ply is optimised exactly once", "statement": "calc_ply_order returns, for asymmetric laminates, a permutation of all plies going alternately from bottom and top to the centre; for symmetric ones the plies of the bottom half (middle ply included) in order.", "quantifier": "all ply counts", "why_tests_cant": "All ply counts.", "anchors": ["src/BELLA/ply_order.py:calc_ply_order", "src/LAYLA_V02/ply_order.py:calc_ply_order"]}
{"id": "C20", "title": "Ply moments of area add up to those of the laminate", "statement": "For every ply count the signed moments of area computed per ply sum to the laminate's (area 1, second moment 1, first moment 0 for an asymmetric laminate), areas and second moments of plies are positive, and the cumulated moments are monotone in the ply order.", "quantifier": "all ply counts >= 1, symmetric and asymmetric", "why_tests_cant": "Telescoping sums for all n.", "anchors": ["src/BELLA/moments_of_areas.py:calc_mom_of_areas", "src/BELLA/lampam_matrix.py"]}
{"id": "C21", "title": "Laminate partitioning yields admissible groups covering all plies", "statement": "Whenever the laminate partition succeeds, group sizes lie in [group_size_min, group_size_max], sum to the number of plies to design, use the smallest possible number of groups, and first-ply positions are those of consecutive non-overlapping blocks; it fails only if no admissible number of groups exists. (Violated: the positions stored for the thickest panel do not count the covering plies, those of the other panels do.)", "quantifier": "all ply counts and all 1 <= group_size_min <= group_size_max", "why_tests_cant": "All ply counts and bounds.", "anchors": ["src/BELLA/divide_panels.py:divide_panels", "src/LAYLA_V02/divide_laminate_sym.py:divide_laminate_sym", "src/LAYLA_V02/divide_laminate_asym.py:divide_laminate_asym"]}
{"id": "C22", "title": "Ply drops are fully distributed over the groups", "statement": "divide_panels distributes the ply drops of each panel over the groups so that they sum to the thickness difference, with non-negative counts never larger than one above the proportional share, and the distribution loop terminates.", "quantifier": "all ply counts, group partitions and thickness differences", "why_tests_cant": "Termination and sums for all inputs.", "anchors": ["src/BELLA/divide_panels.py:divide_panels"]}
{"id": "C23", "title": "Multi-panel objective behaves as a penalised distance", "statement": "calc_obj_one_panel is non-negative and zero exactly when the weighted lamination parameters match the targets; calc_obj_multi_panel is the weighted sum of penalised panel objectives: with zero penalties it equals the weighted mean objective, and it never decreases when a penalty grows. (Violated: the default penalties raise an exception with with_Nones.)", "quantifier": "all lamination parameters, non-negative weights, coefficients and penalties", "why_tests_cant": "All real inputs.", "anchors": ["src/BELLA/objectives.py:calc_obj_one_panel", "src/BELLA/objectives.py:calc_obj_multi_panel"]}
{"id": "C24", "title": "Minimum ply counts computed for the repair guarantee the 10% rule", "statement": "A laminate whose (half-)counts of 0, 90, +45, -45 and +-45 plies reach calc_mini_10 satisfies the requested percentages; for balanced designs the required +45 and -45 counts are equal.", "quantifier": "all ply counts, percentages, symmetric or not", "why_tests_cant": "All n and percentages.", "anchors": ["src/RELAY/repair_10_bal.py:calc_mini_10"]}
{"id": "C25", "title": "Repair for balance and 10% rule returns a complete, balanced, compliant ply content", "statement": "repair_10_bal (ply-count rule) returns a partial laminate and a queue such that: the number of undetermined plies equals the queue length (per half if symmetric); kept plies are those of the input; with in-plane orthotropy the kept plies plus the queue are balanced; the minimum ply counts are reached.", "quantifier": "all laminates and constraint sets for which the minimum counts fit in the laminate", "why_tests_cant": "Loop invariant over all laminates.", "anchors": ["src/RELAY/repair_10_bal.py:repair_10_bal_2", "src/RELAY/repair_10_bal.py:repair_10_bal"]}
{"id": "C26", "title": "Repair for balance and 10% rule leaves compliant laminates unchanged", "statement": "If the laminate already is balanced (when required) and meets the minimum counts, repair_10_bal returns it unchanged with an empty queue. (Violated: for a symmetric laminate with a middle ply meeting the requested shares, because the middle ply is not counted or is not at 0 or 90.)", "quantifier": "all compliant laminates", "why_tests_cant": "All laminates.", "anchors": ["src/RELAY/repair_10_bal.py:repair_10_bal_2"]}
{"id": "C27", "title": "Disorientation/contiguity repair only re-orders plies", "statement": "repair_diso_contig returns a laminate of the same size containing exactly the kept plies and the queue plies (symmetric if the constraint asks for it), with the protected outer plies unchanged, whether it succeeds or not.", "quantifier": "all partial laminates with a matching queue, all constraint settings, all n_D1", "why_tests_cant": "All inputs and all search paths.", "anchors": ["src/RELAY/repair_diso_contig.py:repair_diso_contig", "src/RELAY/repair_from_outside_sym.py", "src/RELAY/repair_from_inside_sym.py", "src/RELAY/repair_from_outside_asym.py", "src/RELAY/repair_from_inside_asym.py"]}
{"id": "C28", "title": "A successful disorientation/contiguity repair yields a compliant laminate", "statement": "When repair_diso_contig reports success (BELLA constraints), neighbouring plies of the returned laminate are within delta_angle and no more than n_contig consecutive plies are equal when the rules are enabled, the outer protected pair excepted. For symmetric laminates contiguity holds when n_contig <= n_D1 + 1 and the laminate is not just above n_contig plies; for asymmetric laminates when n_contig <= n_D1, and both rules when the size tested differs from 4 + D + n_contig. (Violated outside these conditions: six equal plies are accepted with n_contig = 5; the last ply of an asymmetric laminate may be left untested; with n_D1 < n_contig blocks that are too thick are accepted.)", "quantifier": "all constraints with n_contig in 2..6, all laminates with known outer plies and matching queue, all n_D1", "why_tests_cant": "the accepted laminate is assembled from local window tests; only a proof over all laminates shows that the windows cover every junction, and for which sizes they do not", "anchors": ["src/RELAY/repair_diso_contig.py: repair_diso_contig", "src/RELAY/repair_from_outside_sym.py", "src/RELAY/repair_from_inside_sym.py", "src/RELAY/repair_from_outside_asym.py", "src/RELAY/repair_from_inside_asym.py"]}
{"id": "C29", "title": "Queue plies are tried in order of increasing angular distance", "statement": "order_plies_to_test with one adjacent ply returns each distinct admissible angle of the queue exactly once, sorted by increasing angle to the adjacent ply.", "quantifier": "all queues and angle sets", "why_tests_cant": "All queues.", "anchors": ["src/RELAY/repair_diso_contig_tools.py:order_plies_to_test"]}
{"id": "C30", "title": "The chosen permutation is the lexicographically smallest admissible one", "statement": "smallest_row returns a member of the given non-empty list of rows that is lexicographically minimal, and None for an empty list.", "quantifier": "all non-empty tables of equal-length rows", "why_tests_cant": "All tables.", "anchors": ["src/RELAY/repair_diso_contig_tools.py:smallest_row"]}
{"id": "C31", "title": "Flexural refinement by moving plies keeps the ply content, symmetry and lay-up rules and never worsens the objective", "statement": "repair_flexural_2 (n_D2 >= 2, objective of the input at most the sentinel 1e10) terminates normally and returns a laminate with the same plies (and symmetric if required), protected surface plies and middle ply in place, still satisfying disorientation and contiguity if the input did, which is either the input or has an out-of-plane objective smaller by more than 1e-20; repair_flexural_3 likewise without the lay-up rules. (Violated for n_D2 <= 1, which Parameters accepts: repair_flexural_2 then raises ValueError on every laminate with two movable plies.)", "quantifier": "all laminates, targets, weights, tables of trigonometric functions, n_D2, damage tolerance settings", "why_tests_cant": "All laminates and search paths.", "anchors": ["src/RELAY/repair_flexural_2.py:repair_flexural_2", "src/RELAY/repair_flexural_3.py:repair_flexural_3", "src/BELLA/parameters.py:Parameters"]}
{"id": "C32", "title": "Flexural refinement by swapping blocks re-orders plies and only accepts improving swaps", "statement": "repair_flexural_1 returns the same plies re-ordered (symmetric if required, middle ply in place, protected plies of a symmetric laminate in place); for asymmetric laminates and symmetric laminates with an even number of plies the places where the angle changes stay the same, so contiguity stays satisfied, and disorientation stays satisfied; a swap is accepted only if the true out-of-plane objective decreases. (Violated: the swap is evaluated one ply off, so an asymmetric laminate may get a larger objective; in asymmetric laminates the plies protected by the damage tolerance rule may be moved inside; in symmetric laminates with an odd number of plies the contiguity rule may be broken; on uniform ones IndexError is raised.)", "quantifier": "all laminates, targets, weights, tables of trigonometric functions", "why_tests_cant": "All block structures and swap histories.", "anchors": ["src/RELAY/repair_flexural_1.py:repair_flexural_1", "src/RELAY/repair_flexural_tools.py:calc_delta_lampamD_swap", "src/RELAY/repair_flexural_tools.py:find_list_blocks"]}
{"id": "C33", "title": "In-plane refinement keeps the size, the balance and the 10% rule of the laminate, and its candidates improve the objective", "statement": "repair_membrane returns a list of candidates (partial laminate and queue of plies), the last one being the input; each has the ply count, the undetermined positions and the queue length of the input, is symmetric if required, uses allowed angles, and keeps the plies outside the part of the thickness available to the refinement (p_A), the protected surface plies and the middle ply; each candidate has an in-plane objective strictly below that of the candidate which follows it in the list; with in-plane orthotropy the balance of the ply content is kept; for the 10% rule on ply counts each minimum number of 0, 90, +45 and -45 plies is kept (the rule itself when balance makes the +-45 plies equal), for the rule of Abdalla each candidate other than the input lies within 1e-10 of the feasible region; switched off, or with zero coefficients, only the input is returned. (Violated: as pinned the two modules for the rule on ply counts miss imports, so that every call with the refinement on raises an exception; without balance the minimum of +-45 plies taken together is not kept.)", "quantifier": "all partial laminates and queues, targets, weights, constraints, p_A, any number of iterations", "why_tests_cant": "Loop invariant over all laminates, targets and any number of changes.", "anchors": ["src/RELAY/repair_membrane.py:repair_membrane", "src/RELAY/repair_membrane_1_ipo.py", "src/RELAY/repair_membrane_1_no_ipo.py", "src/RELAY/repair_membrane_1_ipo_Abdalla.py", "src/RELAY/repair_membrane_1_no_ipo_Abdalla.py", "src/RELAY/repair_tools.py"]}
{"id": "C34", "title": "Thick-to-thin repair yields nested panels with the requested ply counts", "statement": "When repair_thick_to_thin succeeds, every thinner panel's plies are obtained from the next thicker panel by dropping plies only (guide-based blending), has the requested ply count, keeps the covering plies of the reference panel, is symmetric if required, satisfies contiguity and the Abdalla 10% rule when enabled, and is balanced up to one ply per side whose opposite is still to be dropped; the reference panel and the thicker panels are unchanged. (Violated: with the balance rule a panel may be returned unbalanced, and the 10% rule by ply percentages may be violated by a returned panel, because the ply counts tested are those of another layout.)", "quantifier": "all reduced strips with compatible ply counts, all rules, lamination parameter functions, targets and beam widths", "why_tests_cant": "All search paths.", "anchors": ["src/RELAY/thick_to_thin.py:repair_thick_to_thin"]}
{"id": "C35", "title": "Beam-search tables describe the same candidate", "statement": "In thick-to-thin and thin-to-thick repair, after each step the i-th objective, lamination parameters and ply counts stored belong to the i-th stored layout, so that the selected design is the one with the smallest objective. (Violated: tables are filled in opposite orders: with m surviving children the i-th layout is stored with the values of the (m-1-i)-th one; the worst layout may be returned together with the lamination parameters of the best one.)", "quantifier": "all candidate tables", "why_tests_cant": "Needs all candidate lists.", "anchors": ["src/RELAY/thick_to_thin.py:repair_thick_to_thin", "src/RELAY/thin_to_thick.py:repair_thin_to_thick"]}
{"id": "C36", "title": "Thin-to-thick repair only adds plies", "statement": "When repair_thin_to_thick succeeds each panel is obtained from the next thicker one by dropping plies (its laminate is a sub-laminate of the thicker one), every panel has the requested ply count, the reference panel and the thinner panels keep their laminates; each thicker panel uses allowed angles only, keeps the covering plies of the reference panel on both faces, is symmetric if required, satisfies contiguity, disorientation and the Abdalla 10% rule when enabled, and is balanced up to one ply per side whose opposite is still to be added. (Violated: with the balance rule a panel may be returned unbalanced, and the 10% rule by ply percentages may be violated by a returned panel.)", "quantifier": "all reduced strips with compatible ply counts, all designed thinner panels, rules, lamination parameter functions, targets and beam widths", "why_tests_cant": "All search paths.", "anchors": ["src/RELAY/thin_to_thick.py:repair_thin_to_thick"]}
{"id": "C37", "title": "Beam search keeps the best candidates", "statement": "Local and global pruning keep at most the allowed number of nodes and every kept node has an objective no larger than every discarded node, all tables being filtered consistently. (Violated: objectives above the sentinel 6666 make global pruning keep fewer nodes than allowed; no local pruning takes place at the ply with the highest index.)", "quantifier": "all objective tables below the sentinel value", "why_tests_cant": "All tables.", "anchors": ["src/BELLA/optimiser_with_one_pdl.py"]}
{"id": "C38", "title": "Ply-level pruning keeps the partial laminate feasible", "statement": "pruning_diso_contig_damtol only keeps child orientations for which the extended partial laminate satisfies the enabled rules, and never discards an orientation that keeps it feasible. For symmetric laminates the last ply is tested together with its mirror image. (Violated: with fewer than n_contig plies before the last one the window is cut at the wrong place; for asymmetric laminates with contiguity the last ply always raises; under damage tolerance rule 3 the admissible pair [45, 45] is discarded.)", "quantifier": "all partial laminates and candidate orientations", "why_tests_cant": "All partial laminates.", "anchors": ["src/BELLA/pruning.py:pruning_diso_contig_damtol"]}
{"id": "C39", "title": "The best design over the initial ply drop layouts is returned", "statement": "BELLA_optimiser returns the design with the smallest objective among all the ply drop layouts tried. (Violated when a run fails or the loop stops early because the table then holds NaN.)", "quantifier": "all sequences of run outcomes", "why_tests_cant": "All histories of outcomes.", "anchors": ["src/BELLA/optimiser.py:BELLA_optimiser", "src/BELLA/results.py"]}
{"id": "C40", "title": "Symmetric designs are assembled as palindromes of the right ply count", "statement": "The final assembly of a symmetric panel from its half produces a symmetric laminate with the panel's ply count, for even and odd ply counts.", "quantifier": "all halves and ply counts", "why_tests_cant": "All laminates.", "anchors": ["src/BELLA/optimiser_with_one_pdl.py"]}
{"id": "C41", "title": "Global ply drop layouts built from local ones are symmetric, nested and complete", "statement": "global_pdl_from_local_pdl / format_ply_drops produce for each panel a layout of the guide's length, with -1 exactly at the drops, remaining plies numbered by position, symmetric for symmetric laminates; nested drop sets stay nested. (Violated: with a middle ply the layout of a table cannot be recovered.)", "quantifier": "all local layouts", "why_tests_cant": "All layouts.", "anchors": ["src/BELLA/pdl_tools.py:global_pdl_from_local_pdl", "src/BELLA/pdl_tools.py:format_ply_drops", "src/BELLA/pdl_tools.py:format_ply_drops2"]}
{"id": "C42", "title": "Randomly generated initial layouts respect ply counts, covering and guide-based blending", "statement": "Every layout produced by the random layout generator (without middle ply) drops exactly the required number of plies per panel and group, never a covering ply, is symmetric for symmetric laminates, and (if in every group the numbers of ply drops are ordered as the panels) the plies dropped in a panel are dropped in every panel with more drops, whatever the random choices; the layouts returned are generated ones, and within the time limit they are as many as asked for, different and spaced. (Violated: group drops chosen by divide_panels need not be ordered, which breaks blending; structures with a middle ply crash or drop the middle ply exactly where it exists: no layout can be drawn if the panels have different numbers of ply drops in the last group; the buffer of imperfect layouts discards the best one; a structure with a single possible layout crashes at the time limit when several are asked for; the number of layouts searched is limited by the product of the numbers of ways to drop the plies of each panel instead of the number of blended layouts, so that asking for more than exist never ends before the time limit.)", "quantifier": "all random choices, time-outs and panel sets", "why_tests_cant": "Ranges over all random outcomes and all points at which the time limit is reached.", "anchors": ["src/BELLA/pdl_group.py:randomly_pdl_guide", "src/BELLA/pdl_ini.py:create_initial_pdls", "src/BELLA/pdl_ini.py:create_initial_pdl"]}
{"id": "C43", "title": "sortAccording is a stable re-ordering following the reference order", "statement": "sortAccording(A1, A2) permutes A1 so that elements present in A2 come first in the order of A2, the others last in increasing order.", "quantifier": "all lists", "why_tests_cant": "All lists.", "anchors": ["src/divers/sorting.py:sortAccording"]}
{"id": "C44", "title": "Buckling factors are consistent between lamination parameter formats and homogeneous in the load", "statement": "buckling_factor gives the same value for the 12-component lamination parameters and for the out-of-plane 4-component ones; it is the minimum over the tested modes and scales inversely with the load. (Format consistency is violated: D66 uses the wrong parameter.)", "quantifier": "all lamination parameters, materials, loads", "why_tests_cant": "All real inputs.", "anchors": ["src/buckling/buckling.py:buckling_factor"]}
{"id": "C45", "title": "Element-wise maximum of arrays", "statement": "max_arrays returns the element-wise maximum with broadcasting of one-element arrays and raises for incompatible sizes.", "quantifier": "all pairs of arrays", "why_tests_cant": "All arrays.", "anchors": ["src/divers/arrays.py:max_arrays"]}
{"id": "C46", "title": "Panel connectivity check accepts exactly connected structures", "statement": "MultiPanel construction accepts the boundary set iff the graph of panels and boundaries is connected: it succeeds iff the panel IDs are different, every neighbour exists, the graph is connected and the boundary weightings given are non-negative and non-zero for every boundary.", "quantifier": "all panel counts and boundary lists", "why_tests_cant": "All graphs.", "anchors": ["src/BELLA/multipanels.py:MultiPanel"]}
{"id": "C47", "title": "Repair steps walk through the panels of the blending strip", "statement": "For ply counts of equal parity (any ply counts for asymmetric laminates) the thick-to-thin tables of the reduced structure remove one ply (two for symmetric laminates) per step from the reference panel's ply count down to the thinnest panel's; each step names the panel being designed, signals a new boundary exactly when it starts at the ply count of a panel, and counts the panels designed so far; the thin-to-thick tables mirror this up to the thickest panel. (Violated for mixed parity: no step of a symmetric structure ends at a ply count whose parity is not the one of the reference panel, so the table stops short of a thinnest panel of the other parity.)", "quantifier": "all lists of panel ply counts, symmetric or not, and all reference ply counts", "why_tests_cant": "the tables depend on all ply counts and their gaps; tests only sample a few structures", "anchors": ["src/BELLA/reduced_multipanels.py:ReducedMultiPanel.calc_parameters"]}
{"id": "C48", "title": "Boundaries of the blending strip represent the structure's boundaries", "statement": "The boundaries of the reduced structure are, each listed once with increasing indices, exactly the pairs of different ply counts that meet at a boundary of the structure, and the weight of each is the sum of the weights of the structure's boundaries it represents; with default weights every boundary has weight one, so the reduction never lacks a weight. (Violated: weights given with the IDs in decreasing order make the reduction raise KeyError, a weight of zero is rejected as missing.)", "quantifier": "all sets of panels, neighbour lists and boundary weights", "why_tests_cant": "must hold for every adjacency graph and weight table", "anchors": ["src/BELLA/multipanels.py:MultiPanel.calc_panel_boundary_dict", "src/BELLA/reduced_multipanels.py:ReducedMultiPanel.check_boundary_weights"]}
{"id": "C49", "title": "Panel weightings of the blending strip", "statement": "The weighting that the objective gives to a panel of the blending strip is determined by the ply counts and weightings of the structure: it is the sum of the weightings of the strip panels whose position in the strip is the position in the structure of a panel with that ply count, and the total is that of the panels kept in the strip. It is the weighting of that panel, whatever the weightings, exactly when the structure lists the panels of the strip first, by increasing ply count; it is the aggregated weighting of the panels with that ply count, as documented, exactly when the ply counts of the structure are strictly increasing. (Violated otherwise: weightings are permuted, or a panel gets no weight at all; and the initial weightings of the strip are always zero.)", "quantifier": "all ply counts and weightings", "why_tests_cant": "a wrong index map is invisible on sorted structures", "anchors": ["src/BELLA/reduced_multipanels.py:ReducedMultiPanel.calc_panel_weigthings", "src/BELLA/reduced_multipanels.py:ReducedMultiPanel.__init__"]}
{"id": "C50", "title": "Partial lamination parameters of the plies add up to those of the laminate", "statement": "For every stacking sequence the sum over the plies of the partial lamination parameters computed ply by ply (calc_delta_lampams with the ply positions of the panel) equals the in-plane, coupling and out-of-plane lamination parameters of the laminate defined by through-thickness integration, for asymmetric laminates (any ply count) and for symmetric laminates (plies of one half and middle ply, any ply count).", "quantifier": "all laminates, all ply counts, all per-angle trigonometric tables", "why_tests_cant": "unbounded number of plies and arbitrary stacking sequences; boundary case of the middle ply for odd counts", "anchors": ["src/BELLA/lampam_matrix.py:calc_delta_lampams", "src/BELLA/moments_of_areas.py:calc_mom_of_areas"]}
{"id": "C51", "title": "Objective function parameters are well formed", "statement": "Every ObjFunction that can be built has non-negative penalty coefficients, equal to the requested ones for enabled guidelines and zero for disabled ones; construction fails exactly when an enabled guideline has a negative coefficient or the number of buckling modes is not positive.", "quantifier": "all coefficient values and all combinations of enabled guidelines", "why_tests_cant": "unbounded set of rational coefficients and 64 combinations of switches", "anchors": ["src/BELLA/obj_function.py:ObjFunction"]}
{"id": "C52", "title": "Initial ply drop layouts read from a file and checked", "statement": "Reading initial layouts returns exactly the layouts stored in the sheets pdl1, pdl2, ... of the file, in order (the code violates this: the last layout is returned twice, and a file without layouts raises); the check of initial layouts accepts a list of layouts exactly if each has one row per panel of the reduced structure and each row has as many non-dropped plies as its panel.", "quantifier": "all numbers and contents of sheets; all lists of layouts and all structures", "why_tests_cant": "depends on every number of sheets and every layout", "anchors": ["src/BELLA/pdl_ini.py:read_pdls_excel", "src/BELLA/pdl_ini.py:check_pdls_ini"]}
{"id": "C53", "title": "The tables of the beam search describe the same designs", "statement": "At the end of the beam search of the ply angles there is, for each surviving node, one angle chosen per level such that the stacking sequences of all the panels, the lamination parameters, the ply counts per orientation and the objective stored for this node are all those of this choice; the number of nodes does not exceed the limit of the last level. With limits that are never reached the search is exhaustive.", "quantifier": "all constraint objects, ply drop layouts, orders of the plies, material contributions, objective functions and node limits", "why_tests_cant": "Six tables are edited independently (pop, append, delete) at each step of a search tree of unbounded size.", "anchors": ["src/BELLA/optimiser_with_one_pdl.py:BELLA_optimiser_one_pdl"]}
{"id": "C54", "title": "Asymmetric designs are assembled with each ply at the position it was optimised for", "statement": "For asymmetric laminates the ply optimised as ply l of the guide panel is ply l of the assembled laminate. (Violated for every laminate of at least three plies: plies go to the bottom or top part according to the parity of their index.)", "quantifier": "all asymmetric laminates and designs", "why_tests_cant": "Needs all ply counts.", "anchors": ["src/BELLA/optimiser_with_one_pdl.py:BELLA_optimiser_one_pdl"]}
{"id": "C55", "title": "The best repaired design of a layout is returned with its own data", "statement": "After repair, the design returned for a ply drop layout has the smallest objective, and the stacking sequences, ply drop layout, lamination parameters, ply counts and objectives returned belong to this design. (Violated with save_success_rate when a repair failed before a successful one.)", "quantifier": "all sequences of repaired designs and outcomes of the repairs", "why_tests_cant": "All histories of repairs.", "anchors": ["src/BELLA/optimiser_with_one_pdl.py:BELLA_optimiser_one_pdl"]}
{"id": "C56", "title": "The flexural refinement as a whole keeps ply content, symmetry and lay-up rules", "statement": "repair_flexural returns the laminate unchanged if switched off; otherwise a returned laminate has the same plies and is symmetric if required; for asymmetric laminates and symmetric ones with an even number of plies that satisfy the rules it returns normally a laminate that satisfies them; with one panel any returned laminate satisfies the rules tested. (Violated for symmetric laminates with an odd number of plies: several panels - a laminate breaking the contiguity rule is returned; one panel - an exception is raised.)", "quantifier": "all laminates, parameters n_D2 >= 2 and n_D3, targets, weights", "why_tests_cant": "All laminates and any number of passes.", "anchors": ["src/RELAY/repair_flexural.py:repair_flexural"]}
{"id": "C57", "title": "The in-plane refinement terminates", "statement": "repair_membrane returns after finitely many iterations and without error, for any target, weights and laminate made of allowed angles (with 0 or 90 as middle ply of a symmetric laminate, and the missing imports in place). (Violated with in-plane orthotropy and the rule of Abdalla: when the best change is rejected another one is discarded, and the loop runs for ever.)", "quantifier": "all partial laminates and queues, targets, weights, constraints; executions of any length", "why_tests_cant": "Termination over all inputs.", "anchors": ["src/RELAY/repair_membrane.py:repair_membrane", "src/RELAY/repair_membrane_1_ipo_Abdalla.py"]}
{"id": "C58", "title": "Repair for balance and the 10% rule of Abdalla", "statement": "With the 10% rule of Abdalla enabled, whenever repair_10_bal returns for a laminate of allowed plies (symmetric when symmetry is required), the partial laminate it returns has the same number of plies, is symmetric when required, contains only allowed plies and the mark 666, has exactly as many marks as the queue has plies (per half for symmetric laminates); the kept plies and the queued plies together have the ply count of the input, are balanced when balance is required, and their in-plane lamination parameters are at distance at most 1e-10 from the feasible region of the rule; surface plies protected by the damage tolerance rule are unchanged or marked. The call raises no exception. (Violated: the call need not return. It never returns when no lay-up with that ply count meets the rule, and it never returns when the damage tolerance rule protects all the plies of a laminate which does not meet the rule.)", "quantifier": "all valid constraint objects with the Abdalla rule, all laminates of up to 6666 allowed plies, all distance functions, all numbers of iterations", "why_tests_cant": "The result is that of an unbounded greedy loop over ply changes; a test sees finitely many laminates and cannot establish that a loop never ends.", "anchors": ["src/RELAY/repair_10_bal.py: repair_10_bal, repair_10_Abdalla_ipo, repair_10_Abdalla_no_ipo, calc_dist_10_options_1, calc_dist_10_options_3"]}
{"id": "C59", "title": "Repair of one laminate", "statement": "For every laminate, valid constraint object and objective data, repair_ss either reports a failure and returns the laminate it was given (with the objective 1e10 if an objective is asked for), or reports success and returns a laminate of the same number of plies, with allowed fibre angles only, symmetric if symmetry is required, balanced if balance is required, meeting the 10% rule in the variant in use, and meeting the disorientation and contiguity rules; the plies that damage tolerance protects are kept when the out-of-plane refinement is off. This holds when the minimum counts leave room for the outermost plies. The call ends and raises no exception (10% rule on ply counts or none, and the imports missing in two modules in place): always without out-of-plane refinement, and with it for laminates that are not symmetric with an odd number of plies (two protected plies must differ; some sizes excepted). (Violated: when obj_no_constraints is given no success is ever returned, because the objective function is called with an unknown keyword; the objective would be 1e10 anyway. Without balance and 10% rule, a symmetric laminate with an odd number of plies whose middle ply is neither 0 nor 90 makes the in-plane refinement raise an exception. Without balance, the minimum for +45 and -45 plies together is not kept by the in-plane refinement, see C33.)", "quantifier": "all laminates, constraint objects, parameters, lamination parameter targets and weights", "why_tests_cant": "the result is the composition of four search procedures over all laminates and rule sets", "anchors": ["src/RELAY/repair_ss.py:repair_ss", "src/RELAY/repair_10_bal.py:repair_10_bal", "src/RELAY/repair_membrane.py:repair_membrane", "src/RELAY/repair_diso_contig.py:repair_diso_contig_list", "src/RELAY/repair_flexural.py:repair_flexural"]}
{"id": "C60", "title": "Repair of the reference panel of a blending strip", "statement": "For every blending strip (ply drop layout whose thickest panel has no drops, laminates, reference panel), constraint object and objective data, repair_reference_panel either reports a failure and returns the laminates it was given, or reports success and then: the reference laminate keeps its number of plies, has allowed fibre angles only, is symmetric if required and meets every lay-up rule that is switched on (balance, 10% rule, disorientation, contiguity, damage tolerance; under rule 1 of damage tolerance, where the final check does not test the disorientation, it is the steps that keep it, for laminates that are not symmetric with an odd number of plies, some sizes excepted); the returned stacking sequence table has exactly the drops of the layout, so every panel keeps its number of plies; each ply a panel shares with the reference panel is that of the repaired reference laminate and each other ply is that of the guide laminate; the returned laminates are the rows of the table. The call ends (10% rule on ply counts or none, and the imports missing in two modules in place).", "quantifier": "all blending strips, reference panels, constraint objects, parameters and lamination parameter targets", "why_tests_cant": "the composition of four search procedures and three table conversions over all strips", "anchors": ["src/RELAY/repair_reference_panel.py:repair_reference_panel", "src/BELLA/format_pdl.py:convert_ss_ref_to_reduced_sst", "src/BELLA/format_pdl.py:convert_sst_to_ss"]}
{"id": "C61", "title": "Repair of a blending strip", "statement": "repair_mp on a blending strip (one laminate and one row of the ply drop layout per panel, the thickest panel having all the plies): if it reports success, every panel has a laminate with its number of plies that consists of the plies of its row of the returned table, each panel is obtained from the next thicker one by dropping plies (its laminate is a sub-laminate), symmetry is kept, the laminate of the reference panel is the one returned by the reference panel repair and meets all the rules that are switched on (under rule 1 of damage tolerance, where disorientation is not tested, it is the steps of the repair that keep it, for laminates that are not symmetric with an odd number of plies, some sizes excepted), the other panels have allowed plies only, keep the covering plies, meet the contiguity rule and the lamination parameter 10% rule, the thicker ones also the disorientation rule (both rules up to the outer ply of each face when damage tolerance protects two), and with the balance rule every panel is balanced up to one ply (pair). The call ends (10% rule on ply counts or none, and the imports missing in two modules in place). The checks at the end of repair_mp never raise, every exception comes from one of the three steps, and the step number returned is that of the step that failed; after a failure of step 1 the laminates are those given, after step 2 the table and laminates are those of the repaired reference panel. (Violated: the ply drop layout returned with a successful repair is the initial one although the drops of the table are elsewhere; the thinner panels may break the disorientation rule; when step 3 fails the laminates are not those of the table.)", "quantifier": "all constraint sets that can be built, all strips with any number of panels and plies, all targets, weights and node limits", "why_tests_cant": "the result depends on three searches over an unbounded set of laminates and layouts; the invariants have to hold for every input of the pipeline", "anchors": ["src/RELAY/repair_mp.py:repair_mp", "src/RELAY/repair_reference_panel.py:repair_reference_panel", "src/RELAY/thick_to_thin.py:repair_thick_to_thin", "src/RELAY/thin_to_thick.py:repair_thin_to_thick"]}
{"id": "C62", "title": "Optimisation of a structure for one ply drop layout", "statement": "BELLA_optimiser_one_pdl, when it returns a design that is not the marker 1e10 of a failed repair, returns one laminate and one table row per panel of the structure: the laminate is made of the plies of the row, has the number of plies of the panel, consists of allowed fibre angles and is symmetric if required; a panel is a sub-laminate of each thicker panel and panels with as many plies have the same laminate; the panels with the thickness of the reference panel meet all the lay-up rules that are switched on (under rule 1 of damage tolerance, where disorientation is not tested, it is the steps of the repair that keep it, for laminates that are not symmetric with an odd number of plies, some sizes excepted), the others keep the covering plies, meet the contiguity rule (and the disorientation rule if they are thicker; both up to the outer ply of each face when damage tolerance protects two), and with the balance rule are balanced up to one ply. Every design returned, also after failed repairs, has laminates with the numbers of plies of the panels, and a design in which a panel has the value 1e10 has the value 1e10. The lamination parameters, ply counts, violations, penalties and objective returned are those of the laminates returned with them, and the objective is the smallest one over the nodes left by the beam search. The call ends (10% rule on ply counts or none, and the imports missing in two modules in place). The checks done at the end never reject a design that was repaired with success. (Violated: the ply drop layout returned is always the one given although the drops of the table may be elsewhere; panels thinner than the reference panel may break the disorientation rule; when no repair succeeds the optimiser either raises an exception or, with the default coefficients, returns a laminate breaking the rules with laminates that are not those of its table.)", "quantifier": "all structures, constraint objects, ply drop layouts, targets, parameters, weights and numbers of plies for which the run ends", "why_tests_cant": "the outcome of a beam search followed by a three step repair and a renormalisation over an unbounded space of structures; the properties must hold for every run", "anchors": ["src/BELLA/optimiser_with_one_pdl.py:BELLA_optimiser_one_pdl", "src/RELAY/repair_mp.py:repair_mp", "src/BELLA/reduced_multipanels.py:ReducedMultiPanel"]}
{"id": "C63", "title": "Quantities accumulated by the beam search", "statement": "For symmetric laminates, the lamination parameters that the beam search accumulates ply by ply for a node and a panel are, when all plies have been chosen, exactly those of the laminate assembled for this panel from the plies of the node (the coupling ones are zero), and the ply counts are half those of this laminate (for structures whose panels all have a middle ply, or none has). (Violated for laminates that are not symmetric: the accumulated out-of-plane parameters can differ from those of the assembled laminate.)", "quantifier": "all structures and layouts with symmetric laminates, all numbers of plies, all nodes kept by the search", "why_tests_cant": "the equality is between an incremental computation along any path of the search tree and a direct one, for every path and layout", "anchors": ["src/BELLA/optimiser_with_one_pdl.py:BELLA_optimiser_one_pdl", "src/BELLA/lampam_matrix.py:calc_delta_lampams", "src/BELLA/moments_of_areas.py:calc_mom_of_areas"]}
{"id": "C64", "title": "The whole optimisation returns a blended design", "statement": "BELLA_optimiser on a structure whose panels have more plies than the covering plies (and even numbers of plies for symmetric laminates), whatever the random choices: the initial ply drop layouts are as many as asked for and fit the structure (numbers of plies, symmetry, covering plies kept); if a design is returned and it is not the marker of a failed repair, each panel has a row of the table and a laminate with its number of plies, allowed fibre angles only, symmetric if required, obtained from each thicker panel by dropping plies; the panels with the thickness of the reference panel meet all the rules that are switched on (under rule 1 of damage tolerance, where disorientation is not tested, it is the steps of the repair that keep it, for laminates that are not symmetric with an odd number of plies, some sizes excepted), the other panels keep the covering plies and meet the contiguity rule (the thicker ones the disorientation rule; both up to the outer ply of each face when damage tolerance protects two) and are balanced up to one ply; its objective is the smallest over all the nodes left by the beam search for all the initial layouts. The optimisation ends once the initial layouts are drawn (10% rule on ply counts or none, and the imports missing in two modules in place). A design is returned as soon as each layout gives one and none but the last has a zero objective. (Violated: for a symmetric structure all of whose panels have odd numbers of plies, the plies making one group, no design is ever returned; if the optimisation raises for one layout, no design is returned although others may be feasible.)", "quantifier": "all structures, constraint objects, group sizes, numbers of layouts, random choices, targets and weights for which the run ends", "why_tests_cant": "the composition of division, random layouts, beam search and repairs over all structures and all random choices", "anchors": ["src/BELLA/optimiser.py:BELLA_optimiser", "src/BELLA/pdl_ini.py:create_initial_pdls", "src/BELLA/divide_panels.py:divide_panels", "src/BELLA/optimiser_with_one_pdl.py:BELLA_optimiser_one_pdl", "src/BELLA/results.py:BELLA_Results"]}
{"id": "C65", "title": "Targets and weightings of a panel are filtered consistently with the guidelines", "statement": "A panel can be built exactly with a positive ply count and non-negative areas, lengths and weightings; its middle ply and area are determined by them. At the start of the optimisation its twelve non-negative lamination-parameter weightings become non-negative weightings of sum 1 (not a number exactly when nothing is left), that depend only on the ratios of the initial ones: zero for the lamination parameters that vanish for every laminate allowed by symmetry, balance and the set of angles (and these do vanish), coefficient times average weighting for those of out-of-plane orthotropy when requested, proportional to the initial ones otherwise; targets are zero where symmetry, balance or out-of-plane orthotropy require it and unchanged elsewhere; so the objective of the panel is, up to a positive factor, the weighted squared distance over the other lamination parameters plus the orthotropy penalty. The weight computed from a table with the right ply counts is the weight computed from the ply counts. (Violated: the number of weightings is not checked; the default empty target raises for balanced laminates.)", "quantifier": "all constraints, targets, weightings, coefficients and laminates", "why_tests_cant": "sixteen combinations of guidelines and arbitrary weightings and laminates", "anchors": ["src/BELLA/panels.py:Panel", "src/BELLA/panels.py:filter_target_lampams", "src/BELLA/panels.py:filter_lampam_weightings", "src/BELLA/multipanels.py:calc_weight_from_sst"]}
{"id": "C66", "title": "Lamination-parameter weightings at each level of the search", "statement": "At every level of the beam search the weightings of each panel are non-negative, proportional to the panel's own weightings times the share of area, first or second moment of area of the plies already searched, and of sum 1 (unless all these products are negligible, at most 1e-8). For symmetric laminates these shares are 1-z, 1-z^2, 1-z^3, z being the distance of the remaining plies to the mid-plane, so that out-of-plane lamination parameters together weigh at least as much as in the panel; after all the plies of the panel the weightings are exactly those of the panel. (Violated for asymmetric laminates: the columns are searched from both faces but the shares are accumulated column by column, and the designs are finally compared with the weightings of a middle column.)", "quantifier": "all ply counts, weightings and ply drop layouts", "why_tests_cant": "weights are computed per panel, level and layout; an error only biases the search", "anchors": ["src/BELLA/optimiser_with_one_pdl.py:BELLA_optimiser_one_pdl", "src/BELLA/moments_of_areas.py:calc_mom_of_areas2"]}
{"id": "C67", "title": "10% rule of Abdalla: check and distance on lamination parameters", "statement": "With the lamination-parameter form of the 10% rule, of share p per fibre direction (0 <= p < 25%), a pair of in-plane lamination parameters is accepted exactly (up to a relative 1e-15 tolerance) when it is a mixture of a share 4p of quasi-isotropic material and a share 1-4p of any laminate; every laminate with at least p of 0 plies, p of 90 plies and 2p of +-45 plies is accepted, whatever its other angles (the converse does not hold: the form is weaker than the one on ply counts). A distance is returned for every point, not negative, zero for accepted points of the region, otherwise the smallest distance to the sampled points of the two curves of the code. (Violated: the distance is positive outside of the region, and is a distance to the region. The parabola of the code is 2(x/q)^2-q instead of 2x^2/q-q and both curves extend to +-sqrt(q): points such as (sqrt q, q), reached by an actual laminate that the check rejects, get the distance zero, and points at 1e-6 of the region get a distance of more than 0.05.)", "quantifier": "all accepted constraint settings, all lamination-parameter pairs and all laminates", "why_tests_cant": "a continuum of points and all laminates; the distance looks plausible on the points one tries", "anchors": ["src/guidelines/ten_percent_rule_Abdalla.py:calc_distance_Abdalla", "src/guidelines/ten_percent_rule.py:is_ten_percent_rule"]}
{"id": "C68", "title": "Lamina properties and laminate stiffnesses", "statement": "For every accepted lamina the invariants computed by Material and the formulas of the extensional, coupling and bending stiffnesses in terms of lamination parameters agree with classical laminate theory: for every laminate and every strain or curvature the energy is the sum over the plies of the plane-stress energy of the lamina turned by the fibre angle, weighted by the differences of heights (squared, cubed) of the faces. With physically meaningful constants every laminate has a positive energy. A material is accepted exactly when E11 and the ply thickness are positive, the densities are not negative and nu12^2*E22 differs from E11; when exactly one density is given the other one is consistent with the ply thickness. (Violated: the constants of accepted materials are meaningful, the checks of E22 and G12 test E11, so negative values pass; with no density given the default density per area comes with a density per volume of zero.)", "quantifier": "all elastic constants, densities and thicknesses; all laminates, strains and curvatures", "why_tests_cant": "identities over all angles, laminates and constants", "anchors": ["src/BELLA/materials.py:Material", "src/guidelines/ipo_oopo.py:ipo_param_1_12"]}
{"id": "C69", "title": "Orthotropy parameters and penalties", "statement": "For every laminate and physically meaningful lamina the twelve in-plane orthotropy parameters are computed without exception; the first six are the shear-extension stiffness ratios, the last six are the ratios of the compliances under membrane loads without moments, and the variant for symmetric laminates agrees with the general one; all but the four with the 12 term as denominator are finite. The stiffness parameters are zero exactly when lamination parameters 3 and 4 vanish, so are all twelve for symmetric laminates; they all vanish for symmetric balanced laminates. The balance penalty is non-negative, zero for every balanced laminate, and for the angles 0, +-30, +-45, +-60, 90 only for these; the out-of-plane penalty is zero exactly when parameters 11 and 12 vanish (or it is not requested); the penalty of a parameter array is its largest absolute value over its size. (Violated: every unbalanced laminate is penalised, [45,-15,-75] is not; parameters below the threshold are not penalised, the threshold is ignored; the penalties of several panels can be computed with optimiser parameters given, this always raises UnboundLocalError.)", "quantifier": "all laminas, laminates, constraint settings and lamination parameters", "why_tests_cant": "all laminates and materials, exact zero sets", "anchors": ["src/guidelines/ipo_oopo.py:ipo_param_1_12", "src/guidelines/ipo_oopo.py:ipo_param_1_6", "src/guidelines/ipo_oopo.py:ipo_param_7_12", "src/guidelines/ipo_oopo.py:calc_penalty_ipo", "src/guidelines/ipo_oopo.py:calc_penalty_ipo_param", "src/guidelines/ipo_oopo.py:calc_penalty_ipo_oopo_mp", "src/guidelines/ipo_oopo.py:calc_penalty_oopo_ss"]}
{"id": "C70", "title": "Optimiser parameters", "statement": "The parameters of the optimiser are accepted exactly when the group sizes are integers with 1 <= minimum <= maximum, the number of initial ply-drop layouts and the branching limits are integers of at least 1, the number of plies of the reference panel is a number, p_A a number from 0 to 100, the repair switches booleans and n_D1, n_D2, n_D3 integers (True and False count as integers); the attributes then are the given values. (Violated: n_D1, n_D2, n_D3 and the time limits are tested to be positive; wrong types are reported as parameter-definition errors, objects that cannot be rounded raise TypeError; accepted parameters allow a design to be returned, with a time limit of zero or less none ever is.)", "quantifier": "all argument objects (integers, floats, booleans, others); for the time limit all structures and random choices", "why_tests_cant": "all combinations of values and types, and all random choices of the layout search", "anchors": ["src/BELLA/parameters.py:Parameters", "src/BELLA/pdl_ini.py:create_initial_pdls"]}
{"id": "C71", "title": "Multi-panel structure", "statement": "A structure is accepted exactly when it has a panel, the IDs differ, the named neighbours exist, any two panels are joined by a chain of neighbours and, when boundary weights are given, none is negative and each boundary has a weight other than zero. The smallest and largest ply counts are those of panels and bound the others, the thickest panel recorded is the first of largest count, the area is the sum of the areas, the weight of the structure is the sum of the panel weights; a structure has a middle ply exactly when laminates are symmetric and some count is odd; the neighbour lists hold the panels that name each other. (Violated: a panel is not its own neighbour: a panel naming itself is accepted and listed twice.)", "quantifier": "all lists of panels, IDs, neighbour lists and boundary weights", "why_tests_cant": "all structures of any number of panels with any neighbour graph", "anchors": ["src/BELLA/multipanels.py:MultiPanel", "src/BELLA/multipanels.py:MultiPanel.calc_weight_per_panel", "src/BELLA/multipanels.py:MultiPanel.identify_neighbour_panels", "src/BELLA/multipanels.py:MultiPanel.identify_thickest_panels"]}
{"id": "C72", "title": "Results written and returned by a complete run", "statement": "A run of the optimiser that ends returns the design of C64. Every results table it writes has one row per panel, in order, with the panel's ply count, the laminate and the row of the stacking sequence table of the returned design, the lamination parameters of this laminate and their distances to the targets; the ply counts per fibre direction written are those of the laminate and sum to its number of plies; the violation counts and penalties written are those returned; the sheet of results has one table per layout, with the layout, its objective, its spacing penalty and its panel objectives. (Violated: the sheet of the best result shows the objective and spacing penalty of the best design: it shows those of the first layout; each table shows the laminates found with its layout: they all show those of the best; the percentages are those of the laminates: ply drops are counted as plies; BELLA can be used without the 10% rule: no run without it, or with all its percentages zero and not in the Abdalla form, ever ends normally.)", "quantifier": "all structures, constraints, targets, parameters, random choices and layouts for which a run ends", "why_tests_cant": "all runs, with all random choices and all numbers of layouts", "anchors": ["src/BELLA/optimiser.py:BELLA_optimiser", "src/BELLA/save_result.py:save_result_BELLAs", "src/BELLA/save_result.py:save_result_BELLA_one_pdl", "src/BELLA/results.py:BELLA_Results"]}
{"id": "C73", "title": "Runs from ply-drop layouts read from a file", "statement": "A run from a file uses the layouts of the file as they are and stops with an error unless each layout has one row for each distinct ply count of the structure, in increasing order, with that many plies and one column for each ply of the thickest panel. When the layouts respect symmetry and the covering plies (and, for symmetric laminates, the panels have either all even or all odd numbers of plies), the design returned satisfies the same guarantees as with generated layouts (C64): right ply counts, allowed plies, symmetry, blending, one laminate per ply count, the lay-up rules of the reference panel and of the other panels, smallest objective over all layouts; the tables written agree with it (C72). (Violated: each layout of the file is tried once: the last one is tried twice; layouts that break the constraints are refused: unsymmetric layouts and layouts without the covering plies are accepted, and the design can drop covering plies.)", "quantifier": "all files of layouts, structures, constraints, parameters for which a run ends", "why_tests_cant": "all files of any number of layouts and all structures", "anchors": ["src/BELLA/optimiser.py:BELLA_optimiser", "src/BELLA/pdl_ini.py:check_pdls_ini", "src/BELLA/pdl_ini.py:read_pdls_excel"]}
{"id": "C74", "title": "Ply drops of the groups of an initial layout are spaced, the neighbouring groups included", "statement": "The penalty by which random layouts of a group of plies are accepted is the weighted sum, over the pairs of neighbouring panels, of the plies missing between ply drops of the group together with the plies placed before and after it (for the last group of symmetric laminates: with its own mirror image). A search for the layouts of a group that ends before the time limit returns as many layouts as asked for (or as the product of the numbers of ways to choose the ply drops, if less), all different and all spaced in this sense; so in an initial layout created before the time limits the drops of each group are spaced, those of the previous group on the same face included. (Violated: groups of one ply are not looked at, and the innermost groups of the two faces of asymmetric laminates are not compared, so that several plies in a row may be dropped.)", "quantifier": "all numbers of panels and groups, ply drops, weights, settings, layouts before and after, and random draws", "why_tests_cant": "The layouts depend on random draws and on all combinations of ply drops in the neighbouring groups; a test sees a few draws.", "anchors": ["src/BELLA/pdl_group.py:randomly_pdl_guide", "src/BELLA/pdl_ini.py:create_initial_pdl", "src/guidelines/ply_drop_spacing.py:calc_penalty_spacing"]}
{"id": "C75", "title": "LAYLA's pruning keeps exactly the orientations that respect the rules", "statement": "While a symmetric laminate is designed ply by ply and group by group in LAYLA, from plies that satisfy the enforced disorientation, contiguity and damage tolerance rules, the pruning keeps exactly the orientations with which the laminate still satisfies them, although only the last plies of the previous groups are looked at; the middle ply is restricted to 0 and 90 degrees; a half laminate built from orientations that were kept gives a complete laminate that satisfies symmetry, disorientation, contiguity and damage tolerance. (Violated: at the last ply, when the group has fewer plies than the contiguity limit but more than half of it, plies are skipped, and laminates that break the rule are accepted and correct ones refused; under rule 3 with disorientation enforced at less than 90 degrees two equal surface plies are discarded and only opposite ones kept; with damage tolerance rule 2 or 3 a first group of one ply makes the search fail; for asymmetric laminates the face is deduced from the parity of the ply index, contiguity is not checked on the top face, and the search fails at the ply of highest index if contiguity is enforced without damage tolerance, or if disorientation is and the ply count is even.)", "quantifier": "all constraint objects, orientations, plies already designed, ply counts and divisions into groups", "why_tests_cant": "The result depends on the plies designed in all the previous groups; a test sees a few partial laminates.", "anchors": ["src/LAYLA_V02/pruning.py:pruning_diso_contig_damtol", "src/LAYLA_V02/beam_search.py:beam_search"]}
{"id": "C76", "title": "LAYLA's constraint objects are well formed", "statement": "A constraint object of LAYLA exists exactly when its percentages lie between 0 and 100 and BELLA's object with the same rules and orientations exists; it then has the same rules, orientations, positions of the orientations and table of angled plies. Balance implies in-plane orthotropy. Shares of plies meet the stored percentages exactly when they meet the percentages asked for (none when the 10% rule is off), and the stored total is the least share of the plies that the four directions take. (Violated: impossible requirements are refused: a total above 100 % is only printed, and no laminate can then satisfy the rule; the constructor works for all sets of orientations: sets within {0, 90} make it fail; the contiguity limit is checked: 0 and limits above 6 are accepted and make the search fail.)", "quantifier": "all constructor arguments, and all shares of plies", "why_tests_cant": "all combinations of switches, percentages and sets of orientations", "anchors": ["src/LAYLA_V02/constraints.py:Constraints"]}
{"id": "C77", "title": "LAYLA's parameters and weightings are well formed", "statement": "The parameters of LAYLA are accepted exactly when every setting is of the right kind and within its limits (at least one outer loop; group sizes of at least 1 and at least the contiguity limit, a maximum not below the minimum for each outer loop; node limits of at least 1; p_A from 0 to 100; coefficients and sensitivities not negative; components to optimise given by 0 or 1; not two penalties for one guideline), and the attributes are then the values given, penalties and coefficients of guidelines that are off being off and zero. The initial weightings are the sensitivities of the components to optimise scaled to add up to 1. The final weightings are not negative and add up to 1: lamination parameters that vanish for all the laminates allowed get none, those of in-plane orthotropy the coefficient times the average if the penalty is on and none otherwise, those of out-of-plane orthotropy the coefficient times the average, and the others keep their proportions; they are not numbers exactly when no other lamination parameter has a weighting; scaling the sensitivities changes nothing. The in-plane and out-of-plane parts add up to 1 unless all at most 1e-8. Targets that must vanish are set to zero and the others kept. (Violated: with the orientations 0, +-45, 90, the penalty for in-plane orthotropy on and no out-of-plane orthotropy, the weighting of the lamination parameter 10 is lost; parameters whose weightings are not numbers are accepted; the number of sensitivities is not tested; penalties of guidelines that are off can make the constructor fail.)", "quantifier": "all constraint objects, constructor arguments, sensitivities, masks, coefficients and targets", "why_tests_cant": "all combinations of guidelines, switches, sensitivities and values of twelve components", "anchors": ["src/LAYLA_V02/parameters.py:Parameters", "src/LAYLA_V02/parameters.py:weights_calculation", "src/LAYLA_V02/targets.py:filter_target_lampams"]}
{"id": "C78", "title": "LAYLA's search returns the best feasible design found", "statement": "When LAYLA returns a result, the design has the required number of plies, satisfies the lay-up rules and has the lamination parameters and the objective reported; it is the outcome of a successful repair (a laminate whose repair failed is never returned), and the first one of smallest objective among the outer steps performed; the outer steps end early only if the objective is below 1e-10 or the design is that of the step before. The search of a group of plies returns a leaf of smallest bound; each ply is an orientation kept by the pruning, its ply counts and lamination parameters are those of the plies placed, and it starts from the plies of the groups before and the lamination parameters assumed for the groups after it. The laminate of a symmetric search satisfies symmetry, disorientation, contiguity and damage tolerance before the repair. Between two levels at most the global number of nodes is kept, and per node at most the local number of children, none left out having a smaller bound. (Violated: LAYLA returns designs: as it calls the repair, an exception is raised for every laminate successfully repaired, so that it never returns; plies of asymmetric laminates are put on the side they are designed for: after a first group with an odd number of plies they are put on the other side.)", "quantifier": "all constraint sets, numbers of plies, group sizes, limits, objective functions, penalty factors of at least 1 and repair functions", "why_tests_cant": "all sizes of search trees, all objective functions and all outcomes of the repair", "anchors": ["src/LAYLA_V02/optimiser.py:LAYLA_optimiser", "src/LAYLA_V02/outer_step_sym.py:outer_step_sym", "src/LAYLA_V02/outer_step_asym.py:outer_step_asym", "src/LAYLA_V02/beam_search.py:beam_search"]}
{"id": "C79", "title": "Without effective node limits, the repair of a blending strip is exhaustive", "statement": "If the local and global node limits of the repair are at least as large as the number of candidate nodes, then the thick-to-thin repair of a blending strip reports success if and only if there is a sequence of ply drops (different plies, none among the covering plies, pairs of balancing plies dropped together if balance is required) such that every intermediate laminate meets the contiguity rule and the 10% rule (variant in terms of lamination parameters); likewise, the thin-to-thick repair reports success if and only if there is such a sequence of ply additions with the rules tested by that repair. The spacing penalty by which candidates are compared is the sum, over the boundaries whose two panels have been designed, of the boundary weight times the number of plies missing between successive ply drops per ply; it is 0 exactly if all these ply drops are sufficiently spaced. For the 10% rule on ply counts the claim is violated: the thick-to-thin repair can fail although a sequence of ply drops exists, because it tests the ply counts of other layouts.", "quantifier": "all strips of panels, reference laminates, design guidelines, lamination-parameter targets and sufficiently large node limits", "why_tests_cant": "the non-existence of a plan ranges over all sequences of drops or additions; tests see only particular strips", "anchors": ["src/RELAY/thick_to_thin.py:repair_thick_to_thin", "src/RELAY/thin_to_thick.py:repair_thin_to_thick", "src/guidelines/ply_drop_spacing.py:calc_penalty_spacing"]}
{"id": "C80", "title": "Violations of the guidelines counted ply by ply", "statement": "For plies laid up level by level from the faces of the laminates inwards, alternately at the bottom and at the top of asymmetric laminates, the counts maintained by successive calls of calc_n_viola_diso end, in every panel, with the number of violations of the disorientation rule by the complete laminate of the panel; for symmetric laminates the calls never raise, for asymmetric ones the last call raises exactly if a panel has no ply to compare the last one with. calc_n_viola_contig likewise adds the new violations for a ply at the top and for the last ply of asymmetric laminates; violated otherwise: its first call for a laminate of several levels always raises UnboundLocalError, for a ply at the bottom each new violation is counted twice (three times for a symmetric laminate) instead of once (twice), and the last call for a symmetric laminate raises if the first panel has the ply. calc_n_plies_per_angle returns the initial ply counts plus the number of plies of each angle, with half a ply for a ply on the mid-plane.", "quantifier": "all sequences of ply angles, ply drop layouts, numbers of panels, disorientation angles, contiguity limits from 2 to 6, initial ply counts and stacking sequences", "why_tests_cant": "the counts must be right for every history of calls, for every length of the laminates and pattern of ply drops", "anchors": ["src/guidelines/disorientation.py:calc_n_viola_diso", "src/guidelines/contiguity.py:calc_n_viola_contig", "src/guidelines/ten_percent_rule.py:calc_n_plies_per_angle"]}
{"id": "C81", "title": "Subset sums", "statement": "subset_next visits each of the 2^n subsets of n positions exactly once, in lexicographic order and with its rank, and then signals the end with rank -1; subset_sum_count returns the number of subsets of positions whose weights have the target sum; subset_sum_find returns a subset with the target sum if there is one and the empty subset otherwise. For any values the calls of subset_sum_next until `more` is false end and return different subsets that have the desired sum; they return all of them for strictly increasing values that are not negative (and positive values if the desired sum is zero). An entry of subset_sum_table is not zero exactly for the positive sums of subsets of the weights, and subset_sum_table_to_list then returns the weights of a subset with the target sum, each weight being used at most once. Violated: with repeated values, which its description allows, subset_sum_next misses subsets; without a solution subset_sum_table_to_list never ends instead of returning an empty list.", "quantifier": "all numbers of weights, integer weights (not negative ones for the tables), targets and numbers of calls", "why_tests_cant": "the enumeration must be complete and free of repetitions for every set of weights, and end after every history of calls", "anchors": ["src/divers/subset_sum.py:subset_next", "src/divers/subset_sum.py:subset_sum_count", "src/divers/subset_sum.py:subset_sum_find", "src/divers/subset_sum.py:subset_sum_next", "src/divers/subset_sum.py:subset_sum_table", "src/divers/subset_sum.py:subset_sum_table_to_list"]}
{"id": "C82", "title": "Helper functions of the repair", "statement": "calc_delta_angle returns the smallest angle between two fibre directions: between 0 and 90, zero only for the same direction, the same in both orders, and equal to the difference of the ply angles or its opposite up to half turns. calc_distanciation of two plies is the difference of their distances to the nearest face divided by half the number of plies: in [0, 1), zero exactly for plies at the same distance from the faces, the same in both orders; for one ply it is in (0, 1], 1 exactly for the two outer plies, and larger for a ply nearer to a face. objective_repair with its default coefficients is in [0, 3/4) and zero exactly for the same direction at the same distance. is_equal answers, for a queue with as many plies as are missing, whether the known plies are those of the initial stacking sequence and the queue holds the missing ones; violated for queues of other sizes: when one ply is missing, every queue made of that ply, also the empty one, is accepted.", "quantifier": "all ply angles, ply positions, laminate sizes, stacking sequences and ply queues", "why_tests_cant": "the formulas branch on the half of the laminate and on the sign of angle differences; correctness must hold for every laminate size, position and multiset of plies", "anchors": ["src/RELAY/repair_tools.py:calc_delta_angle", "src/RELAY/repair_tools.py:calc_distanciation", "src/RELAY/repair_tools.py:objective_repair", "src/RELAY/repair_10_bal.py:is_equal"]}
{"id": "C83", "title": "Lay-up rules in the beam search for asymmetric laminates", "statement": "For asymmetric laminates the guide panel of every design returned by the beam search satisfies the disorientation, contiguity and damage tolerance rules that are active, and no compliant laminate is discarded by the pruning. (Violated: proved instead are the following. With the contiguity rule and no damage tolerance the search never returns a result. With the disorientation rule, no damage tolerance and an odd number of plies neither. With the disorientation rule alone and an even number of plies the designs returned are exactly \u2014 the limits on the number of nodes permitting \u2014 those whose lower and upper halves both satisfy the rule and whose two outermost plies are within the limit of each other: the compliant laminate 0, 45, ..., 45, 90 is never found and a laminate with 0 beside 90 in the middle is. With damage tolerance and an even number of plies both faces are at +45 or -45; with an odd number the top face can be at another angle, the pairs of rule 2 are tested across the faces, and the contiguity of the upper half is not enforced.)", "quantifier": "all asymmetric problems (ply counts, constraint objects, objectives, node limits) and all designs returned", "why_tests_cant": "all ply counts and every branch of the search", "anchors": ["src/BELLA/pruning.py:pruning_diso_contig_damtol", "src/BELLA/optimiser_with_one_pdl.py:BELLA_optimiser_one_pdl", "src/BELLA/ply_order.py:calc_ply_order"]}
{"id": "C84", "title": "Input files describe the problem that was saved", "statement": "Constraints written to an input file by save_constraints_BELLA and read by the scripts run_BELLA_from_input_file_* give back the same constraint object (the percentages, combined or not, the covering plies implied by damage tolerance, the set of angles and the values stored for rules that are off included; only the switch of the 10% rule on lamination parameters is cleared when the 10% rule is off). Materials are read back with the same moduli, stiffnesses, ply thickness and areal density, and the same density per volume if only one density had been given. The penalty coefficients are read back. Panels whose targets and weightings were filtered are read back with the same ID, neighbours, ply count, middle ply, weighting, targets and weightings, which the filters of the optimiser leave unchanged, and the structure has the same boundaries, ply counts and thickest panels. The row of a panel also holds its area, its lengths if both are given, and its weightings before the filters. The sheet Multipanel holds the number of panels, the largest ply count, the position of the first panel that has it, and the area of all the plies. (Violated: the coefficient of the balance penalty is written but not read, it becomes 1; a density per volume given with an areal density is lost; the areas are not read, so that with the script for stacking-sequence tables the structure weighs nothing; weights of boundaries are lost, each becomes 1; the file of two panels side by side, or of panels without neighbours, cannot be read; the cell 'Area' of the sheet Multipanel is the area of all the plies.)", "quantifier": "all constraint objects built with the default combination of the 45 degree percentages, all materials, objective functions and structures accepted by the constructors", "why_tests_cant": "every combination of rules, percentages, weightings and panel lay-outs must survive the round trip", "anchors": ["src/BELLA/save_set_up.py:save_constraints_BELLA", "src/BELLA/save_set_up.py:save_materials", "src/BELLA/save_set_up.py:save_multipanel", "src/BELLA/save_set_up.py:save_objective_function_BELLA", "run_BELLA_from_input_file_SST_1.py", "run_BELLA_from_input_file_horseshoe.py"]}
{"id": "C85", "title": "Success rates and number of evaluations reported", "statement": "The counters stored with the result of an optimisation with one ply drop layout are true to the run: n_designs_last_level is the number of designs left by the beam search; n_designs_after_ss_ref_repair, n_designs_after_thick_to_thin and n_designs_after_thin_to_thick are the numbers of these designs that pass the repair of the reference panel, also that of the thinner panels, and all three repairs, each number being at most the previous one; with save_success_rate, n_designs_repaired_unique is the number of distinct stacking sequence tables among the designs with an objective below 1e10, at least 1 and at most the number of repaired designs (0 without save_success_rate); n_obj_func_calls is the number of candidates (kept node and allowed orientation) over the levels of the search, at least one per level and at most the number of orientations times (1 + (number of levels - 1) x global_node_limit). The counters are stored exactly when a result is returned.", "quantifier": "all problems, beam widths, repairs (successful or not at each step) and settings of save_success_rate", "why_tests_cant": "the counters must agree with the outcome of every repair in every search, and the bound on the evaluations must hold for every number of plies and beam width", "anchors": ["src/BELLA/optimiser_with_one_pdl.py:BELLA_optimiser_one_pdl", "src/BELLA/results.py:BELLA_ResultsOnePdl", "src/RELAY/repair_mp.py:repair_mp"]}
{"id": "C86", "title": "Moments of area, weightings and ply contributions in LAYLA's search", "statement": "For every number of plies and every division into non-empty groups that covers the plies searched, the cumulated areas, first and second moments of area that LAYLA computes at each level of its search are exactly those of the plies designed so far (the plies nearest to both faces for a symmetric laminate, plies taken alternately from the bottom and from the top otherwise), the whole laminate counting 1 and the middle ply once; the moments of the groups are those of their plies. The weightings at every level are twelve non-negative numbers with sum 1, proportional to the final weightings times these moments, and at the last level the final weightings; they are not numbers only if all final weightings are zero. For a symmetric laminate the contributions of the plies add up to its lamination parameters. (Violated for laminates that are not symmetric: the tables are filled in the order of optimisation but read with the ply number, so that the contributions add up to the lamination parameters of a rearranged laminate, and the second ply designed is judged with the weightings of the complete laminate.)", "quantifier": "all numbers of plies (from 3 for the violation), all divisions into groups, all weightings, all laminates, all trigonometric tables", "why_tests_cant": "telescoping sums over an unbounded number of plies; the error in the indexing is hidden because every table has the right size and the right total", "anchors": ["src/LAYLA_V02/moment_of_areas.py:calc_mom_of_areas", "src/LAYLA_V02/optimiser.py:LAYLA_optimiser", "src/LAYLA_V02/beam_search.py:beam_search"]}
{"id": "C87", "title": "LAYLA's penalties are those of the laminates", "statement": "The bound of a partial laminate in LAYLA's search is the objective of its lamination parameters (1e10 after a failed repair), increased by penalties weighted by the coefficients: what its own ply counts lack to satisfy the 10% rule (last level of a group, if the penalty is switched on), the larger of its imbalance (if balance is required and the penalty switched on) and its in-plane orthotropy penalty, and its out-of-plane orthotropy penalty; a bound is never below the objective. The objective of the design of an outer step is 1e10 if the design breaks the 10% rule or, balance being required, is not balanced or not orthotropic in plane, and otherwise its objective with the penalties; so a design returned with a smaller objective satisfies these rules. (Violated: the imbalance used is that of the child treated last, the one with the first orientation kept, for all the children of a node; after the repair the penalty for the 10% rule is still that of the plies before the repair; for a design that is not balanced or not orthotropic an exception is raised instead of the objective 1e10, as the switches are read from the constraints, which have none.)", "quantifier": "all constraint sets, nodes, numbers of children, ply counts, lamination parameters, objective functions, coefficients and orthotropy penalties that are not negative", "why_tests_cant": "all ply counts, all sizes of search trees and all outcomes of the pruning and of the repair", "anchors": ["src/LAYLA_V02/beam_search.py:beam_search", "src/LAYLA_V02/outer_step_sym.py:outer_step_sym", "src/LAYLA_V02/outer_step_asym.py:outer_step_asym", "src/LAYLA_V02/objectives.py:calc_obj_multi_ss"]}
{"id": "C88", "title": "The saved set-ups of LAYLA and BELLA are the ones used", "statement": "The workbook that LAYLA writes records the set-up of the run: constraints made again from the cells of the sheet Constraints are the constraints that were used, whether or not rules to be broken are written on the same sheet, provided that the shares asked for +45 and -45 degrees are together at most 100 %; the rules to be broken are recorded, with their limits, exactly when they are on; the sheet Parameters can be written exactly when the sensitivities and the lamination parameters to be optimised have twelve components, and parameters made again from its cells, with the same constraints, are those that were used (weightings, group sizes, node limits, penalties and coefficients). The sheet Parameters of BELLA's workbook likewise records its parameters: made again from its cells they are the same, time limits given by numbers included. (Violated: when the shares for +45 and -45 degrees add up to more than 100 %, which is accepted, the recorded share for +-45 degrees is refused by the constructor.)", "quantifier": "all constraint sets, rules to be broken and parameters accepted by the constructors", "why_tests_cant": "every combination of switches, limits, percentages, orientations, group sizes and weightings must survive", "anchors": ["src/LAYLA_V02/save_set_up.py:save_constraints_LAYLA", "src/LAYLA_V02/save_set_up.py:save_parameters_LAYLA_V02", "src/LAYLA_V02/constraints.py:Constraints", "src/LAYLA_V02/parameters.py:Parameters", "src/BELLA/save_set_up.py:save_parameters_BELLA"]}
{"id": "C89", "title": "The buckling factor of a stacking sequence is that of the laminate", "statement": "With lamination parameters computed from the stacking sequence, buckling_factor_ss returns the smallest, over the modes tested, of the ratios of the bending and twisting energy of the laminate (the sum over its plies of the energy of unidirectional laminae with the moduli given to Material, turned by the ply angle) to the work of the loads. For every material with physically meaningful constants, every laminate and every load this factor is positive (the margin is above -100 %); it is unchanged when the order of the plies is reversed and when the signs of all the angles are changed; it exists as soon as one mode is tested.", "quantifier": "all stacking sequences, materials, loads, plate dimensions different from zero and numbers of modes", "why_tests_cant": "all real inputs and all numbers of plies", "anchors": ["src/buckling/buckling.py:buckling_factor_ss", "src/buckling/buckling.py:buckling_factor", "src/BELLA/materials.py:Material"]}
{"id": "C90", "title": "Numbers of designs reported by LAYLA", "statement": "When LAYLA returns a design, its tables of counters have one entry for each outer step asked for, filled for the outer steps performed and NaN for the others. For each step performed, n_designs_last_level is the number of complete laminates (with the required number of plies) built at the last level of the search of the last group, one for each node reached there and each orientation that the design rules leave for its last ply; n_designs_repaired is the number of those for which the repair succeeds; n_designs_repaired_unique is at most the number of distinct laminates obtained by a successful repair, and exactly this number if no penalised objective reaches 1e10. The design found by the step is one of them, so that 1 <= n_designs_repaired_unique <= n_designs_repaired <= n_designs_last_level. When the penalised objectives stay below 6666 (the marker used by the code), n_designs_last_level is at most the number of allowed orientations (at least 2) times global_node_limit_p (at least 1).", "quantifier": "all targets, constraints, objectives, penalties of at least 1, repairs, branching limits, groupings and numbers of outer steps for which LAYLA returns a design", "why_tests_cant": "the counts depend on the whole search tree, of unbounded depth and width, on the objectives and on the outcome of every repair", "anchors": ["src/LAYLA_V02/beam_search.py:beam_search", "src/LAYLA_V02/beam_search.py:beamsearchResults", "src/LAYLA_V02/outer_step_sym.py:outer_step_sym", "src/LAYLA_V02/outer_step_asym.py:outer_step_asym", "src/LAYLA_V02/optimiser.py:LAYLA_optimiser", "src/LAYLA_V02/results.py:LAYLA_Results"]}
{"id": "C91", "title": "LAYLA: laminates that must not satisfy the 10% rule", "statement": "When LAYLA is given not_constraints whose 10% rule is active, every laminate from which the search returns a design is symmetric, has the required number of plies, and violates that rule: with the direction drawn at the outer step (0, 90, +45, -45, or +45 and -45 together), its number of plies in that direction, plus one, is below the percentage of not_constraints times the number of plies. The design is the outcome of a successful repair of that laminate. Violated clause: laminates with none of these plies are not always found - when the percentage drawn amounts to at most two plies, every child is left out and the search always fails, even though a laminate without such plies exists. When the 10% rule of not_constraints is not active, the option changes nothing for symmetric laminates; asymmetric laminates are always refused.", "quantifier": "all targets, constraints, not_constraints, draws, objectives, penalties of at least 1, repairs, branching limits and groupings of the plies", "why_tests_cant": "the numbers of plies are kept along every branch of a search tree of unbounded depth, from group to group, with a half ply at the middle of odd laminates, and the direction is drawn at random", "anchors": ["src/LAYLA_V02/beam_search.py:beam_search", "src/LAYLA_V02/outer_step_sym.py:outer_step_sym", "src/LAYLA_V02/optimiser.py:LAYLA_optimiser"]}
