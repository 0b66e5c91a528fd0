{
 "claims": [
  {
   "property": "C01",
   "status": "proved",
   "theorems": [
    "Bella.C01_is_diso_iff",
    "Bella.C01_is_diso_symm",
    "Bella.C01_is_diso_mono"
   ],
   "note": ""
  },
  {
   "property": "C02",
   "status": "proved",
   "theorems": [
    "Bella.C02_is_diso_ss_iff",
    "Bella.C02_is_diso_ss_dam_tol",
    "Bella.C02_is_diso_ss_reverse",
    "Bella.C02_rule1_unchecked"
   ],
   "note": "The clause marked as violated in the statement is a defect of the code: it is proved as the *_violation / negative theorems listed (concrete witnesses or for all inputs); the rest of the statement is proved for all inputs."
  },
  {
   "property": "C03",
   "status": "proved",
   "theorems": [
    "Bella.C03_penalty_exact",
    "Bella.C03_penalty_zero_iff",
    "Bella.C03_penalty_le",
    "Bella.C03_penalty_mp"
   ],
   "note": "The clause marked as violated in the statement is a defect of the code: it is proved as the *_violation / negative theorems listed (concrete witnesses or for all inputs); the rest of the statement is proved for all inputs."
  },
  {
   "property": "C04",
   "status": "proved",
   "theorems": [
    "Bella.C04_is_contig_iff",
    "Bella.C04_is_contig_reverse",
    "Bella.C04_is_contig_infix_mono",
    "Bella.C04_is_contig_unsupported"
   ],
   "note": ""
  },
  {
   "property": "C05",
   "status": "proved",
   "theorems": [
    "Bella.C05_penalty_exact",
    "Bella.C05_penalty_zero_iff",
    "Bella.C05_contig_vector",
    "Bella.C05_matrix_row",
    "Bella.C05_penalty_mp"
   ],
   "note": ""
  },
  {
   "property": "C06",
   "status": "proved",
   "theorems": [
    "Bella.C06_is_balanced_iff",
    "Bella.C06_is_balanced_perm",
    "Bella.C06_penalty_bounds",
    "Bella.C06_penalty_zero_iff",
    "Bella.C06_penalty_mp",
    "Bella.C06_penalty_vs_check"
   ],
   "note": ""
  },
  {
   "property": "C07",
   "status": "proved",
   "theorems": [
    "Bella.C07_is_dam_tol_iff",
    "Bella.C07_is_dam_tol_total",
    "Bella.C07_is_dam_tol_reverse",
    "Bella.C07_rules_nested"
   ],
   "note": ""
  },
  {
   "property": "C08",
   "status": "proved",
   "theorems": [
    "Bella.C08_stack_iff",
    "Bella.C08_stack_perm",
    "Bella.C08_queue_asym",
    "Bella.C08_queue_sym_even",
    "Bella.C08_queue_sym_odd_wrong",
    "Bella.C08_queue_sym_odd",
    "Bella.C08_stack_merged_iff",
    "Bella.C08_counts_iff"
   ],
   "note": "The clause marked as violated in the statement is a defect of the code: it is proved as the *_violation / negative theorems listed (concrete witnesses or for all inputs); the rest of the statement is proved for all inputs."
  },
  {
   "property": "C09",
   "status": "proved",
   "theorems": [
    "Bella.C09_penalty_ss",
    "Bella.C09_penalty_value",
    "Bella.C09_replace_ply",
    "Bella.C09_penalty_off",
    "Bella.C09_penalty_pc",
    "Bella.C09_penalty_pc_empty_raises"
   ],
   "note": ""
  },
  {
   "property": "C10",
   "status": "proved",
   "theorems": [
    "Bella.C10_penalty_exact",
    "Bella.C10_penalty_zero_iff",
    "Bella.C10_penalty_reverse",
    "Bella.C10_penalty_mono",
    "Bella.C10_layout_zero_iff",
    "Bella.C10_relative_layout"
   ],
   "note": ""
  },
  {
   "property": "C11",
   "status": "proved",
   "theorems": [
    "Bella.C11_check_lay_up_rules",
    "Bella.C11_rule1_disorientation_unchecked",
    "Bella.C11_check_ply_drop_rules",
    "Bella.C11_covering_two_unchecked"
   ],
   "note": "The clause marked as violated in the statement is a defect of the code: it is proved as the *_violation / negative theorems listed (concrete witnesses or for all inputs); the rest of the statement is proved for all inputs."
  },
  {
   "property": "C12",
   "status": "proved",
   "theorems": [
    "Bella.C12_internal_diso_contig",
    "Bella.C12_internal_contig",
    "Bella.C12_external_diso_contig",
    "Bella.C12_external_contig",
    "Bella.C12_external_contig_misaligned"
   ],
   "note": "The clause marked as violated in the statement is a defect of the code: it is proved as the *_violation / negative theorems listed (concrete witnesses or for all inputs); the rest of the statement is proved for all inputs."
  },
  {
   "property": "C13",
   "status": "proved",
   "theorems": [
    "Bella.C13_filters_compose"
   ],
   "note": ""
  },
  {
   "property": "C14",
   "status": "proved",
   "theorems": [
    "Bella.C14_angles",
    "Bella.C14_dict",
    "Bella.C14_indices",
    "Bella.C14_angles_bal",
    "Bella.C14_angles_bal_nodup",
    "Bella.C14_percentages",
    "Bella.C14_rules",
    "Bella.C14_percentages_sum_unchecked",
    "Bella.C14_n_contig_unchecked",
    "Bella.C14_percent_45_dropped"
   ],
   "note": "The clause marked as violated in the statement is a defect of the code: it is proved as the *_violation / negative theorems listed (concrete witnesses or for all inputs); the rest of the statement is proved for all inputs."
  },
  {
   "property": "C15",
   "status": "proved",
   "theorems": [
    "Bella.C15_reduction",
    "Bella.C15_middle_ply",
    "Bella.C15_extend_then_reduce",
    "Bella.C15_reduce_then_extend",
    "Bella.C15_accepted_iff"
   ],
   "note": ""
  },
  {
   "property": "C16",
   "status": "proved",
   "theorems": [
    "Bella.C16_reference_panel"
   ],
   "note": ""
  },
  {
   "property": "C17",
   "status": "proved",
   "theorems": [
    "Bella.C17_guide_table",
    "Bella.C17_ss_to_sst_to_ss",
    "Bella.C17_sst_to_ss_to_sst",
    "Bella.C17_ply_counts",
    "Bella.C17_new_reference",
    "Bella.C17_minus_one_angle_violation"
   ],
   "note": "The clause marked as violated in the statement is a defect of the code: it is proved as the *_violation / negative theorems listed (concrete witnesses or for all inputs); the rest of the statement is proved for all inputs."
  },
  {
   "property": "C18",
   "status": "proved",
   "theorems": [
    "Bella.C18_ref_to_table",
    "Bella.C18_table_to_panel",
    "Bella.C18_table_to_panel_2",
    "Bella.C18_round_trip",
    "Bella.C18_duplicate_positions_violation"
   ],
   "note": "The clause marked as violated in the statement is a defect of the code: it is proved as the *_violation / negative theorems listed (concrete witnesses or for all inputs); the rest of the statement is proved for all inputs."
  },
  {
   "property": "C19",
   "status": "proved",
   "theorems": [
    "Bella.C19_ply_order",
    "Bella.C19_levels_partition"
   ],
   "note": ""
  },
  {
   "property": "C20",
   "status": "proved",
   "theorems": [
    "Bella.C20_signed_sums",
    "Bella.C20_positive_sums",
    "Bella.C20_positive",
    "Bella.C20_cumulated"
   ],
   "note": ""
  },
  {
   "property": "C21",
   "status": "proved",
   "theorems": [
    "Bella.C21_groups",
    "Bella.C21_succeeds_iff",
    "Bella.C21_every_ply_in_one_group",
    "Bella.C21_positions_sym",
    "Bella.C21_positions_asym",
    "Bella.C21_layla_asym",
    "Bella.C21_layla_sym",
    "Bella.C21_forbidden",
    "Bella.C21_no_ply_left",
    "Bella.C21_covering_offset_violation"
   ],
   "note": "The clause marked as violated in the statement is a defect of the code: it is proved as the *_violation / negative theorems listed (concrete witnesses or for all inputs); the rest of the statement is proved for all inputs."
  },
  {
   "property": "C22",
   "status": "proved",
   "theorems": [
    "Bella.C22_distribution_rounding",
    "Bella.C22_distribution",
    "Bella.C22_thickest",
    "Bella.C22_ply_drops"
   ],
   "note": ""
  },
  {
   "property": "C23",
   "status": "proved",
   "theorems": [
    "Bella.C23_one_panel",
    "Bella.C23_one_panel_zero",
    "Bella.C23_layla",
    "Bella.C23_multi_panel",
    "Bella.C23_no_penalty",
    "Bella.C23_monotone",
    "Bella.C23_multi_panel_nones",
    "Bella.C23_one_laminate",
    "Bella.C23_one_laminate_bound",
    "Bella.C23_default_penalty_violation"
   ],
   "note": "The clause marked as violated in the statement is a defect of the code: it is proved as the *_violation / negative theorems listed (concrete witnesses or for all inputs); the rest of the statement is proved for all inputs."
  },
  {
   "property": "C24",
   "status": "proved",
   "theorems": [
    "Bella.C24_iff",
    "Bella.C24_balanced"
   ],
   "note": ""
  },
  {
   "property": "C25",
   "status": "proved",
   "theorems": [
    "Bella.C25_repair_10_bal",
    "Bella.C25_fits"
   ],
   "note": ""
  },
  {
   "property": "C26",
   "status": "proved",
   "theorems": [
    "Bella.C26_unchanged",
    "Bella.C26_middle_ply_violation"
   ],
   "note": "The clause marked as violated in the statement is a defect of the code: it is proved as the *_violation / negative theorems listed (concrete witnesses or for all inputs); the rest of the statement is proved for all inputs."
  },
  {
   "property": "C27",
   "status": "proved",
   "theorems": [
    "Bella.C27_reorders_symmetric",
    "Bella.C27_reorders_asymmetric",
    "Bella.C27_first_repairable_candidate"
   ],
   "note": ""
  },
  {
   "property": "C28",
   "status": "proved",
   "theorems": [
    "Bella.C28_disorientation_symmetric",
    "Bella.C28_contiguity_symmetric",
    "Bella.C28_disorientation_asymmetric",
    "Bella.C28_contiguity_asymmetric",
    "Bella.C28_violation_small_laminate",
    "Bella.C28_violation_last_ply",
    "Bella.C28_violation_few_permuted_plies"
   ],
   "note": "The clause marked as violated in the statement is a defect of the code: it is proved as the *_violation / negative theorems listed (concrete witnesses or for all inputs); the rest of the statement is proved for all inputs."
  },
  {
   "property": "C29",
   "status": "proved",
   "theorems": [
    "Bella.C29_order_plies",
    "Bella.C29_order_plies_other"
   ],
   "note": ""
  },
  {
   "property": "C30",
   "status": "proved",
   "theorems": [
    "Bella.C30_smallest_row",
    "Bella.C30_order_irrelevant",
    "Bella.C30_best_permutation"
   ],
   "note": ""
  },
  {
   "property": "C31",
   "status": "proved",
   "theorems": [
    "Bella.C31_flexural_moves",
    "Bella.C31_flexural_moves_inner",
    "Bella.C31_flexural_redesign",
    "Bella.C31_flexural_moves_small_n_D2"
   ],
   "note": "The clause marked as violated in the statement is a defect of the code: it is proved as the *_violation / negative theorems listed (concrete witnesses or for all inputs); the rest of the statement is proved for all inputs."
  },
  {
   "property": "C32",
   "status": "proved",
   "theorems": [
    "Bella.C32_swaps_reorder",
    "Bella.C32_swaps_protected",
    "Bella.C32_swaps_rules",
    "Bella.C32_swaps_uniform_crash",
    "Bella.C32_swap_worsens",
    "Bella.C32_swap_breaks_damage_tolerance",
    "Bella.C32_swap_breaks_contiguity"
   ],
   "note": "The clause marked as violated in the statement is a defect of the code: it is proved as the *_violation / negative theorems listed (concrete witnesses or for all inputs); the rest of the statement is proved for all inputs."
  },
  {
   "property": "C33",
   "status": "proved",
   "theorems": [
    "Bella.C33_candidates",
    "Bella.C33_objective_decreases",
    "Bella.C33_balance",
    "Bella.C33_abdalla",
    "Bella.C33_off",
    "Bella.C33_as_pinned_crashes",
    "Bella.C33_combined_violated",
    "Bella.C33_minimum_counts",
    "Bella.C33_ten_percent"
   ],
   "note": "The clause marked as violated in the statement is a defect of the code: it is proved as the *_violation / negative theorems listed (concrete witnesses or for all inputs); the rest of the statement is proved for all inputs."
  },
  {
   "property": "C34",
   "status": "proved",
   "theorems": [
    "Bella.C34_nested_panels",
    "Bella.C34_rules",
    "Bella.C34_balance",
    "Bella.C34_balance_violation",
    "Bella.C34_ten_percent_violation"
   ],
   "note": "The clause marked as violated in the statement is a defect of the code: it is proved as the *_violation / negative theorems listed (concrete witnesses or for all inputs); the rest of the statement is proved for all inputs."
  },
  {
   "property": "C35",
   "status": "proved",
   "theorems": [
    "Bella.C35_reversed_tables",
    "Bella.C35_selection_violation",
    "Bella.C35_selection_violation_thick"
   ],
   "note": "The intended statement is false of the code; C35_reversed_tables states for all inputs which values are stored with which layout, the two others give the resulting wrong selections."
  },
  {
   "property": "C36",
   "status": "proved",
   "theorems": [
    "Bella.C36_nested_panels",
    "Bella.C36_rules",
    "Bella.C36_balance",
    "Bella.C36_balance_violation",
    "Bella.C36_ten_percent_violation"
   ],
   "note": "The clause marked as violated in the statement is a defect of the code: it is proved as the *_violation / negative theorems listed (concrete witnesses or for all inputs); the rest of the statement is proved for all inputs."
  },
  {
   "property": "C37",
   "status": "proved",
   "theorems": [
    "Bella.C37_global_pruning",
    "Bella.C37_local_pruning",
    "Bella.C37_local_pruning_last_violation",
    "Bella.C37_global_sentinel_violation"
   ],
   "note": "The clause marked as violated in the statement is a defect of the code: it is proved as the *_violation / negative theorems listed (concrete witnesses or for all inputs); the rest of the statement is proved for all inputs."
  },
  {
   "property": "C38",
   "status": "proved",
   "theorems": [
    "Bella.C38_pruning_all_rules",
    "Bella.C38_pruning_exact",
    "Bella.C38_pruning_last",
    "Bella.C38_half_to_full",
    "Bella.C38_pruning_last_violation",
    "Bella.C38_pruning_asymmetric_violation",
    "Bella.C38_rule3_violation",
    "Bella.C38_search_guide"
   ],
   "note": "The clause marked as violated in the statement is a defect of the code: it is proved as the *_violation / negative theorems listed (concrete witnesses or for all inputs); the rest of the statement is proved for all inputs."
  },
  {
   "property": "C39",
   "status": "proved",
   "theorems": [
    "Bella.C39_best_layout",
    "Bella.C39_failed_layout_violation",
    "Bella.C39_early_stop_violation"
   ],
   "note": "The clause marked as violated in the statement is a defect of the code: it is proved as the *_violation / negative theorems listed (concrete witnesses or for all inputs); the rest of the statement is proved for all inputs."
  },
  {
   "property": "C40",
   "status": "proved",
   "theorems": [
    "Bella.C40_symmetric_assembly",
    "Bella.C40_search_assembly"
   ],
   "note": ""
  },
  {
   "property": "C41",
   "status": "proved",
   "theorems": [
    "Bella.C41_asymmetric",
    "Bella.C41_asymmetric_nested",
    "Bella.C41_symmetric_total",
    "Bella.C41_layout_of_table",
    "Bella.C41_layout_of_table_middle_ply_violation",
    "Bella.C41_layout_per_boundary",
    "Bella.C41_rules",
    "Bella.C41_rules_total",
    "Bella.C41_format",
    "Bella.C41_format_out_of_range",
    "Bella.C41_format_nested",
    "Bella.C41_format2",
    "Bella.C41_format2_idempotent",
    "Bella.C41_symmetric",
    "Bella.C41_symmetric_nested"
   ],
   "note": "The clause marked as violated in the statement is a defect of the code: it is proved as the *_violation / negative theorems listed (concrete witnesses or for all inputs); the rest of the statement is proved for all inputs."
  },
  {
   "property": "C42",
   "status": "proved",
   "theorems": [
    "Bella.C42_middle_ply_no_layout_violation",
    "Bella.C42_layouts_asked_violation",
    "Bella.C42_random_layout",
    "Bella.C42_random_layout_nested",
    "Bella.C42_returned_layouts_are_generated",
    "Bella.C42_search_in_time",
    "Bella.C42_search_count",
    "Bella.C42_single_layout_violation",
    "Bella.C42_best_imperfect_lost_violation",
    "Bella.C42_initial_layout_symmetric",
    "Bella.C42_initial_layout_symmetric_nested",
    "Bella.C42_initial_layout_asymmetric",
    "Bella.C42_initial_layout_asymmetric_nested",
    "Bella.C42_initial_layouts_in_time",
    "Bella.C42_initial_layouts_created",
    "Bella.C42_blending_broken_by_group_violation",
    "Bella.C42_group_drops_not_ordered_violation",
    "Bella.C42_no_ply_drops_violation",
    "Bella.C42_middle_ply_crash_violation",
    "Bella.C42_middle_ply_inverted_violation"
   ],
   "note": "The clause marked as violated in the statement is a defect of the code: it is proved as the *_violation / negative theorems listed (concrete witnesses or for all inputs); the rest of the statement is proved for all inputs."
  },
  {
   "property": "C43",
   "status": "proved",
   "theorems": [
    "Bella.C43_sort",
    "Bella.C43_repeated_reference",
    "Bella.C43_unique"
   ],
   "note": ""
  },
  {
   "property": "C44",
   "status": "proved",
   "theorems": [
    "Bella.C44_minimum_over_modes",
    "Bella.C44_defined",
    "Bella.C44_inverse_in_load",
    "Bella.C44_load_sign",
    "Bella.C44_cube_of_thickness",
    "Bella.C44_more_modes",
    "Bella.C44_formats_violation"
   ],
   "note": "The clause marked as violated in the statement is a defect of the code: it is proved as the *_violation / negative theorems listed (concrete witnesses or for all inputs); the rest of the statement is proved for all inputs."
  },
  {
   "property": "C45",
   "status": "proved",
   "theorems": [
    "Bella.C45_max_arrays",
    "Bella.C45_incompatible"
   ],
   "note": ""
  },
  {
   "property": "C46",
   "status": "proved",
   "theorems": [
    "Bella.C46_connectivity",
    "Bella.C46_boundaries",
    "Bella.C46_accepted_iff"
   ],
   "note": ""
  },
  {
   "property": "C47",
   "status": "proved",
   "theorems": [
    "Bella.C47_thick_to_thin_steps",
    "Bella.C47_thin_to_thick_steps",
    "Bella.C47_other_parity_never_designed_violation",
    "Bella.C47_mixed_parity_violation"
   ],
   "note": "The clause marked as violated in the statement is a defect of the code: it is proved as the *_violation / negative theorems listed (concrete witnesses or for all inputs); the rest of the statement is proved for all inputs."
  },
  {
   "property": "C48",
   "status": "proved",
   "theorems": [
    "Bella.C48_strip_boundaries",
    "Bella.C48_strip_weights",
    "Bella.C48_default_weights",
    "Bella.C48_reversed_key_violation",
    "Bella.C48_zero_weight_violation"
   ],
   "note": "The clause marked as violated in the statement is a defect of the code: it is proved as the *_violation / negative theorems listed (concrete witnesses or for all inputs); the rest of the statement is proved for all inputs."
  },
  {
   "property": "C49",
   "status": "proved",
   "theorems": [
    "Bella.C49_weightings_sorted",
    "Bella.C49_unsorted_violation",
    "Bella.C49_weightings",
    "Bella.C49_total",
    "Bella.C49_own_iff",
    "Bella.C49_aggregated_iff",
    "Bella.C49_lost_panel_violation",
    "Bella.C49_initial_zero_violation"
   ],
   "note": "The clauses marked as violated in the statement are defects of the code, proved as the *_violation theorems and by the exact equivalences C49_own_iff and C49_aggregated_iff; the exact value of the weightings is proved for all structures."
  },
  {
   "property": "C50",
   "status": "proved",
   "theorems": [
    "Bella.C50_symmetric",
    "Bella.C50_asymmetric"
   ],
   "note": ""
  },
  {
   "property": "C51",
   "status": "proved",
   "theorems": [
    "Bella.C51_coefficients",
    "Bella.C51_nonneg"
   ],
   "note": ""
  },
  {
   "property": "C52",
   "status": "proved",
   "theorems": [
    "Bella.C52_read_duplicates_last_violation",
    "Bella.C52_read_none",
    "Bella.C52_check_iff"
   ],
   "note": "The clause marked as violated in the statement is a defect of the code: it is proved as the *_violation / negative theorems listed (concrete witnesses or for all inputs); the rest of the statement is proved for all inputs."
  },
  {
   "property": "C53",
   "status": "proved",
   "theorems": [
    "Bella.C53_beam_search_coherent",
    "Bella.C53_exhaustive"
   ],
   "note": ""
  },
  {
   "property": "C54",
   "status": "proved",
   "theorems": [
    "Bella.C54_asymmetric_assembly_violation"
   ],
   "note": "The intended statement is false of the code; the theorem proves the violation for every laminate of at least three plies."
  },
  {
   "property": "C55",
   "status": "proved",
   "theorems": [
    "Bella.C55_selected_design",
    "Bella.C55_save_success_rate_violation"
   ],
   "note": "The clause marked as violated in the statement is a defect of the code: it is proved as the *_violation / negative theorems listed (concrete witnesses or for all inputs); the rest of the statement is proved for all inputs."
  },
  {
   "property": "C56",
   "status": "proved",
   "theorems": [
    "Bella.C56_flexural_off",
    "Bella.C56_flexural_reorders",
    "Bella.C56_flexural_rules",
    "Bella.C56_flexural_single_panel",
    "Bella.C56_flexural_odd_symmetric"
   ],
   "note": "The clause marked as violated in the statement is a defect of the code: it is proved as the *_violation / negative theorems listed (concrete witnesses or for all inputs); the rest of the statement is proved for all inputs."
  },
  {
   "property": "C57",
   "status": "proved",
   "theorems": [
    "Bella.C57_terminates",
    "Bella.C57_abdalla_never_ends"
   ],
   "note": "The clause marked as violated in the statement is a defect of the code: it is proved as the *_violation / negative theorems listed (concrete witnesses or for all inputs); the rest of the statement is proved for all inputs."
  },
  {
   "property": "C58",
   "status": "proved",
   "theorems": [
    "Bella.C58_repair_10_abdalla",
    "Bella.C58_no_error",
    "Bella.C58_infeasible_never_ends",
    "Bella.C58_protected_never_ends"
   ],
   "note": "The clause marked as violated in the statement is a defect of the code: it is proved as the *_violation / negative theorems listed (concrete witnesses or for all inputs); the rest of the statement is proved for all inputs."
  },
  {
   "property": "C59",
   "status": "proved",
   "theorems": [
    "Bella.C59_rules_one_ply",
    "Bella.C59_failure",
    "Bella.C59_objective_never_returned",
    "Bella.C59_content",
    "Bella.C59_protected_plies",
    "Bella.C59_rules_refined",
    "Bella.C59_rules_unrefined",
    "Bella.C59_terminates_unrefined",
    "Bella.C59_terminates_refined",
    "Bella.C59_middle_ply_violation"
   ],
   "note": "The clause marked as violated in the statement is a defect of the code: it is proved as the *_violation / negative theorems listed (concrete witnesses or for all inputs); the rest of the statement is proved for all inputs."
  },
  {
   "property": "C60",
   "status": "proved",
   "theorems": [
    "Bella.C60_disorientation_one_ply",
    "Bella.C60_failure",
    "Bella.C60_panels_follow",
    "Bella.C60_reference_rules",
    "Bella.C60_ends"
   ],
   "note": ""
  },
  {
   "property": "C61",
   "status": "proved",
   "theorems": [
    "Bella.C61_disorientation_one_ply",
    "Bella.C61_panels",
    "Bella.C61_reference_rules",
    "Bella.C61_other_panels",
    "Bella.C61_balance",
    "Bella.C61_outcome",
    "Bella.C61_failed_tables_violation",
    "Bella.C61_stale_layout_violation",
    "Bella.C61_disorientation_violation",
    "Bella.C61_ends"
   ],
   "note": "The clause marked as violated in the statement is a defect of the code: it is proved as the *_violation / negative theorems listed (concrete witnesses or for all inputs); the rest of the statement is proved for all inputs."
  },
  {
   "property": "C62",
   "status": "proved",
   "theorems": [
    "Bella.C62_ply_counts",
    "Bella.C62_failure_marker",
    "Bella.C62_laminates",
    "Bella.C62_reference_rules",
    "Bella.C62_other_rules",
    "Bella.C62_balance",
    "Bella.C62_minimal",
    "Bella.C62_stale_layout_violation",
    "Bella.C62_reported_values",
    "Bella.C62_reported_penalties",
    "Bella.C62_reported_objective",
    "Bella.C62_returns",
    "Bella.C62_failure_exception_violation",
    "Bella.C62_failure_returned_violation",
    "Bella.C62_returned_layout_violation",
    "Bella.C62_disorientation_violation",
    "Bella.C62_disorientation_one_ply",
    "Bella.C62_ends"
   ],
   "note": "The clause marked as violated in the statement is a defect of the code: it is proved as the *_violation / negative theorems listed (concrete witnesses or for all inputs); the rest of the statement is proved for all inputs."
  },
  {
   "property": "C63",
   "status": "proved",
   "theorems": [
    "Bella.C63_search_lampams",
    "Bella.C63_search_counts",
    "Bella.C63_asymmetric_violation"
   ],
   "note": "The clause marked as violated in the statement is a defect of the code: it is proved as the *_violation / negative theorems listed (concrete witnesses or for all inputs); the rest of the statement is proved for all inputs."
  },
  {
   "property": "C64",
   "status": "proved",
   "theorems": [
    "Bella.C64_odd_panels_violation",
    "Bella.C64_disorientation_one_ply",
    "Bella.C64_initial_layouts",
    "Bella.C64_best",
    "Bella.C64_returns",
    "Bella.C64_exception_violation",
    "Bella.C64_design",
    "Bella.C64_minimal",
    "Bella.C64_reference_rules",
    "Bella.C64_other_rules",
    "Bella.C64_ends"
   ],
   "note": "The clause marked as violated in the statement is a defect of the code: it is proved as the *_violation / negative theorems listed (concrete witnesses or for all inputs); the rest of the statement is proved for all inputs."
  },
  {
   "property": "C65",
   "status": "proved",
   "theorems": [
    "Bella.C65_filter_defined",
    "Bella.C65_filter_normalised",
    "Bella.C65_filter_values",
    "Bella.C65_filter_scale",
    "Bella.C65_targets",
    "Bella.C65_objective",
    "Bella.C65_constructor",
    "Bella.C65_size_violation",
    "Bella.C65_default_target_violation",
    "Bella.C65_dropped_vanish",
    "Bella.C65_weight"
   ],
   "note": "The clause marked as violated in the statement is a defect of the code: it is proved as the *_violation / negative theorems listed (concrete witnesses or for all inputs); the rest of the statement is proved for all inputs."
  },
  {
   "property": "C66",
   "status": "proved",
   "theorems": [
    "Bella.C66_levels",
    "Bella.C66_shares",
    "Bella.C66_last_level",
    "Bella.C66_out_of_plane_first",
    "Bella.C66_asymmetric_violation"
   ],
   "note": "The clause marked as violated in the statement is a defect of the code: it is proved as the *_violation / negative theorems listed (concrete witnesses or for all inputs); the rest of the statement is proved for all inputs."
  },
  {
   "property": "C67",
   "status": "proved",
   "theorems": [
    "Bella.C67_check",
    "Bella.C67_ply_shares",
    "Bella.C67_distance",
    "Bella.C67_zero_outside_violation",
    "Bella.C67_one_percent_violation",
    "Bella.C67_overestimate_violation",
    "Bella.C67_weaker_than_counts"
   ],
   "note": "The clause marked as violated in the statement is a defect of the code: it is proved as the *_violation / negative theorems listed (concrete witnesses or for all inputs); the rest of the statement is proved for all inputs."
  },
  {
   "property": "C68",
   "status": "proved",
   "theorems": [
    "Bella.C68_laminate_energy",
    "Bella.C68_positive_energy",
    "Bella.C68_accepted",
    "Bella.C68_negative_moduli_violation",
    "Bella.C68_densities",
    "Bella.C68_default_density_violation"
   ],
   "note": "The clause marked as violated in the statement is a defect of the code: it is proved as the *_violation / negative theorems listed (concrete witnesses or for all inputs); the rest of the statement is proved for all inputs."
  },
  {
   "property": "C69",
   "status": "proved",
   "theorems": [
    "Bella.C69_compliance",
    "Bella.C69_zero_iff",
    "Bella.C69_balanced_zero",
    "Bella.C69_balance_penalty",
    "Bella.C69_penalty_detects",
    "Bella.C69_undetected_violation",
    "Bella.C69_oopo_penalty",
    "Bella.C69_param_penalty",
    "Bella.C69_threshold_violation",
    "Bella.C69_panels",
    "Bella.C69_parameters_violation"
   ],
   "note": "The clause marked as violated in the statement is a defect of the code: it is proved as the *_violation / negative theorems listed (concrete witnesses or for all inputs); the rest of the statement is proved for all inputs."
  },
  {
   "property": "C70",
   "status": "proved",
   "theorems": [
    "Bella.C70_accepted",
    "Bella.C70_unchecked_violation",
    "Bella.C70_type_violation",
    "Bella.C70_time_limit_violation"
   ],
   "note": "The clause marked as violated in the statement is a defect of the code: it is proved as the *_violation / negative theorems listed (concrete witnesses or for all inputs); the rest of the statement is proved for all inputs."
  },
  {
   "property": "C71",
   "status": "proved",
   "theorems": [
    "Bella.C71_extrema",
    "Bella.C71_areas",
    "Bella.C71_middle_plies",
    "Bella.C71_thickest",
    "Bella.C71_neighbours",
    "Bella.C71_accepted",
    "Bella.C71_self_neighbour_violation"
   ],
   "note": "The clause marked as violated in the statement is a defect of the code: it is proved as the *_violation / negative theorems listed (concrete witnesses or for all inputs); the rest of the statement is proved for all inputs."
  },
  {
   "property": "C72",
   "status": "proved",
   "theorems": [
    "Bella.C72_design",
    "Bella.C72_rows",
    "Bella.C72_objectives",
    "Bella.C72_best_objective_violation",
    "Bella.C72_same_laminates_violation",
    "Bella.C72_ten_percent_violation",
    "Bella.C72_counts",
    "Bella.C72_percentage_violation",
    "Bella.C72_penalties",
    "Bella.C72_run_example"
   ],
   "note": "The clause marked as violated in the statement is a defect of the code: it is proved as the *_violation / negative theorems listed (concrete witnesses or for all inputs); the rest of the statement is proved for all inputs."
  },
  {
   "property": "C73",
   "status": "proved",
   "theorems": [
    "Bella.C73_reference_rules",
    "Bella.C73_other_rules",
    "Bella.C73_checked",
    "Bella.C73_width",
    "Bella.C73_design",
    "Bella.C73_minimal",
    "Bella.C73_tables",
    "Bella.C73_last_twice_violation",
    "Bella.C73_run_example",
    "Bella.C73_covering_violation",
    "Bella.C73_odd_example"
   ],
   "note": "The clause marked as violated in the statement is a defect of the code: it is proved as the *_violation / negative theorems listed (concrete witnesses or for all inputs); the rest of the statement is proved for all inputs."
  },
  {
   "property": "C74",
   "status": "proved",
   "theorems": [
    "Bella.C74_penalty_zero_iff",
    "Bella.C74_penalty_exact",
    "Bella.C74_random_layout_penalty",
    "Bella.C74_group_search",
    "Bella.C74_symmetric",
    "Bella.C74_asymmetric",
    "Bella.C74_one_ply_group_violation",
    "Bella.C74_junction_violation",
    "Bella.C74_one_ply_group_example_violation",
    "Bella.C74_example"
   ],
   "note": "The clause marked as violated in the statement is a defect of the code: it is proved as the *_violation / negative theorems listed (concrete witnesses or for all inputs); the rest of the statement is proved for all inputs."
  },
  {
   "property": "C75",
   "status": "proved",
   "theorems": [
    "Bella.C75_pruning_all_rules",
    "Bella.C75_pruning_exact",
    "Bella.C75_pruning_last",
    "Bella.C75_laminate",
    "Bella.C75_last_ply_violation",
    "Bella.C75_second_ply_violation",
    "Bella.C75_rule3_violation",
    "Bella.C75_asymmetric_violation",
    "Bella.C75_far_face_violation",
    "Bella.C75_parity_violation",
    "Bella.C75_top_contiguity_violation",
    "Bella.C75_example"
   ],
   "note": "The clause marked as violated in the statement is a defect of the code: it is proved as the *_violation / negative theorems listed (concrete witnesses or for all inputs); the rest of the statement is proved for all inputs."
  },
  {
   "property": "C76",
   "status": "proved",
   "theorems": [
    "Bella.C76_agrees",
    "Bella.C76_angles",
    "Bella.C76_rules",
    "Bella.C76_percentages",
    "Bella.C76_percent_tot",
    "Bella.C76_total_violation",
    "Bella.C76_no_angled_ply_violation",
    "Bella.C76_n_contig_violation",
    "Bella.C76_schemes",
    "Bella.C76_pruning_hypotheses",
    "Bella.C76_example"
   ],
   "note": "The clause marked as violated in the statement is a defect of the code: it is proved as the *_violation / negative theorems listed (concrete witnesses or for all inputs); the rest of the statement is proved for all inputs."
  },
  {
   "property": "C77",
   "status": "proved",
   "theorems": [
    "Bella.C77_weights_refused",
    "Bella.C77_weights_initial",
    "Bella.C77_weights_final",
    "Bella.C77_weights_nan",
    "Bella.C77_weights_scale",
    "Bella.C77_parts",
    "Bella.C77_targets",
    "Bella.C77_accepted",
    "Bella.C77_group_sizes",
    "Bella.C77_lost_weight_violation",
    "Bella.C77_example",
    "Bella.C77_lost_weight_example",
    "Bella.C77_nan_violation",
    "Bella.C77_size_violation",
    "Bella.C77_off_switch_violation"
   ],
   "note": "The clause marked as violated in the statement is a defect of the code: it is proved as the *_violation / negative theorems listed (concrete witnesses or for all inputs); the rest of the statement is proved for all inputs."
  },
  {
   "property": "C78",
   "status": "proved",
   "theorems": [
    "Bella.C78_group_search",
    "Bella.C78_last_group",
    "Bella.C78_groups",
    "Bella.C78_symmetric_step",
    "Bella.C78_before_repair",
    "Bella.C78_step",
    "Bella.C78_design",
    "Bella.C78_global_pruning",
    "Bella.C78_local_pruning",
    "Bella.C78_limits",
    "Bella.C78_local_limit",
    "Bella.C78_never_returns_violation",
    "Bella.C78_asymmetric_step",
    "Bella.C78_wrong_side_violation",
    "Bella.C78_example"
   ],
   "note": "The clause marked as violated in the statement is a defect of the code: it is proved as the *_violation / negative theorems listed (concrete witnesses or for all inputs); the rest of the statement is proved for all inputs."
  },
  {
   "property": "C79",
   "status": "proved",
   "theorems": [
    "Bella.C79_thick_to_thin_exhaustive",
    "Bella.C79_thin_to_thick_exhaustive",
    "Bella.C79_spacing_penalty",
    "Bella.C79_spacing_zero_iff",
    "Bella.C79_failure_example",
    "Bella.C79_ten_percent_violation",
    "Bella.C79_thick_failure_example"
   ],
   "note": "The clause marked as violated in the statement is a defect of the code: it is proved as the *_violation / negative theorems listed (concrete witnesses or for all inputs); the rest of the statement is proved for all inputs."
  },
  {
   "property": "C80",
   "status": "proved",
   "theorems": [
    "Bella.C80_diso_count",
    "Bella.C80_diso_sym_total",
    "Bella.C80_diso_asym_raises",
    "Bella.C80_contig_first_call_violation",
    "Bella.C80_contig_bottom_violation",
    "Bella.C80_contig_top",
    "Bella.C80_contig_last",
    "Bella.C80_contig_sym_last_violation",
    "Bella.C80_plies_per_angle",
    "Bella.C80_penalty"
   ],
   "note": "The clause marked as violated in the statement is a defect of the code: it is proved as the *_violation / negative theorems listed (concrete witnesses or for all inputs); the rest of the statement is proved for all inputs."
  },
  {
   "property": "C81",
   "status": "proved",
   "theorems": [
    "Bella.C81_subset_next",
    "Bella.C81_ranks",
    "Bella.C81_count",
    "Bella.C81_find",
    "Bella.C81_next_sound",
    "Bella.C81_next_complete",
    "Bella.C81_next_duplicates_violation",
    "Bella.C81_table",
    "Bella.C81_table_to_list",
    "Bella.C81_no_solution_violation"
   ],
   "note": "The clause marked as violated in the statement is a defect of the code: it is proved as the *_violation / negative theorems listed (concrete witnesses or for all inputs); the rest of the statement is proved for all inputs."
  },
  {
   "property": "C82",
   "status": "proved",
   "theorems": [
    "Bella.C82_delta_angle",
    "Bella.C82_distanciation_two",
    "Bella.C82_distanciation_one",
    "Bella.C82_objective_repair",
    "Bella.C82_is_equal",
    "Bella.C82_is_equal_violation"
   ],
   "note": "The clause marked as violated in the statement is a defect of the code: it is proved as the *_violation / negative theorems listed (concrete witnesses or for all inputs); the rest of the statement is proved for all inputs."
  },
  {
   "property": "C83",
   "status": "proved",
   "theorems": [
    "Bella.C83_contiguity_raises",
    "Bella.C83_odd_disorientation_raises",
    "Bella.C83_disorientation_search",
    "Bella.C83_feasible_discarded_violation",
    "Bella.C83_middle_junction_violation",
    "Bella.C83_damage_tolerance_even",
    "Bella.C83_damage_tolerance_odd_violation",
    "Bella.C83_damage_tolerance_pairs_violation",
    "Bella.C83_contiguity_upper_violation"
   ],
   "note": "The clause marked as violated in the statement is a defect of the code: it is proved as the *_violation / negative theorems listed (concrete witnesses or for all inputs); the rest of the statement is proved for all inputs."
  },
  {
   "property": "C84",
   "status": "proved",
   "theorems": [
    "Bella.C84_constraints",
    "Bella.C84_materials",
    "Bella.C84_density_violation",
    "Bella.C84_objective",
    "Bella.C84_balance_coefficient_violation",
    "Bella.C84_panel_row",
    "Bella.C84_panel",
    "Bella.C84_structure",
    "Bella.C84_area_violation",
    "Bella.C84_two_panels_violation",
    "Bella.C84_no_neighbour_violation",
    "Bella.C84_multipanel_sheet",
    "Bella.C84_area_row_violation"
   ],
   "note": "The clause marked as violated in the statement is a defect of the code: it is proved as the *_violation / negative theorems listed (concrete witnesses or for all inputs); the rest of the statement is proved for all inputs."
  },
  {
   "property": "C85",
   "status": "proved",
   "theorems": [
    "Bella.C85_evaluations",
    "Bella.C85_counters",
    "Bella.C85_unique",
    "Bella.C85_returned",
    "Bella.C85_example",
    "Bella.C85_evaluations_example"
   ],
   "note": ""
  },
  {
   "property": "C86",
   "status": "proved",
   "theorems": [
    "Bella.C86_cumulated",
    "Bella.C86_whole",
    "Bella.C86_weights",
    "Bella.C86_contributions_symmetric",
    "Bella.C86_contributions_asymmetric",
    "Bella.C86_asymmetric_violation",
    "Bella.C86_asymmetric_weights_violation"
   ],
   "note": "The clause marked as violated in the statement is a defect of the code: it is proved as the *_violation / negative theorems listed (concrete witnesses or for all inputs); the rest of the statement is proved for all inputs."
  },
  {
   "property": "C87",
   "status": "proved",
   "theorems": [
    "Bella.C87_not_below",
    "Bella.C87_bounds",
    "Bella.C87_final",
    "Bella.C87_switch_violation",
    "Bella.C87_returned",
    "Bella.C87_balance_violation",
    "Bella.C87_repaired_violation",
    "Bella.C87_example"
   ],
   "note": "The clause marked as violated in the statement is a defect of the code: it is proved as the *_violation / negative theorems listed (concrete witnesses or for all inputs); the rest of the statement is proved for all inputs."
  },
  {
   "property": "C88",
   "status": "proved",
   "theorems": [
    "Bella.C88_constraints",
    "Bella.C88_share_violation",
    "Bella.C88_not_constraints",
    "Bella.C88_parameters",
    "Bella.C88_example",
    "Bella.C88_share_example",
    "Bella.C88_bella_parameters",
    "Bella.C88_bella_example"
   ],
   "note": "The clause marked as violated in the statement is a defect of the code: it is proved as the *_violation / negative theorems listed (concrete witnesses or for all inputs); the rest of the statement is proved for all inputs."
  },
  {
   "property": "C89",
   "status": "proved",
   "theorems": [
    "Bella.C89_energy",
    "Bella.C89_positive",
    "Bella.C89_mirror",
    "Bella.C89_defined",
    "Bella.C89_example"
   ],
   "note": ""
  },
  {
   "property": "C90",
   "status": "proved",
   "theorems": [
    "Bella.C90_step",
    "Bella.C90_tables",
    "Bella.C90_limit",
    "Bella.C90_example",
    "Bella.C90_limit_example"
   ],
   "note": ""
  },
  {
   "property": "C91",
   "status": "proved",
   "theorems": [
    "Bella.C91_violated",
    "Bella.C91_small_violation",
    "Bella.C91_inactive",
    "Bella.C91_example"
   ],
   "note": "The clause marked as violated in the statement is a defect of the code: it is proved as the *_violation / negative theorems listed (concrete witnesses or for all inputs); the rest of the statement is proved for all inputs."
  }
 ]
}