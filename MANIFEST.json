{
 "claims": [
  {
   "property": "C01",
   "status": "proved",
   "theorems": [
    "Zksql.C01_project_bit_decompose",
    "Zksql.C01_bit_decompose_project",
    "Zksql.C01_bit_decompose_bits",
    "Zksql.C01_u64_round_trip",
    "Zksql.C01_binary_decompose"
   ],
   "note": ""
  },
  {
   "property": "C02",
   "status": "proved",
   "theorems": [
    "Zksql.C02_get_index",
    "Zksql.C02_get_index_zero"
   ],
   "note": ""
  },
  {
   "property": "C03",
   "status": "proved",
   "theorems": [
    "Zksql.C03_evaluate_opt",
    "Zksql.C03_evaluate",
    "Zksql.C03_evaluate_no_par",
    "Zksql.C03_evaluate_boolean",
    "Zksql.C03_evaluate_wrong_length"
   ],
   "note": ""
  },
  {
   "property": "C04",
   "status": "proved",
   "theorems": [
    "Zksql.C04_fix_variables",
    "Zksql.C04_fix_variables_no_par",
    "Zksql.C04_fix_variables_too_long"
   ],
   "note": ""
  },
  {
   "property": "C05",
   "status": "proved",
   "theorems": [
    "Zksql.C05_fix_last_variables",
    "Zksql.C05_fix_last_variables_no_par"
   ],
   "note": ""
  },
  {
   "property": "C06",
   "status": "partial",
   "theorems": [
    "Zksql.C06_violated",
    "Zksql.C06_serial_parallel_partial"
   ],
   "note": "The property is false of the code: C06_violated proves the negation (build without the parallel feature). What holds is the _partial theorem."
  },
  {
   "property": "C07",
   "status": "proved",
   "theorems": [
    "Zksql.C07_merge_polynomials",
    "Zksql.C07_merge_rejects"
   ],
   "note": ""
  },
  {
   "property": "C08",
   "status": "proved",
   "theorems": [
    "Zksql.C08_random_mle_list",
    "Zksql.C08_random_zero_mle_list",
    "Zksql.C08_random_zero_degree_zero",
    "Zksql.C08_virtual_rand",
    "Zksql.C08_virtual_rand_zero"
   ],
   "note": ""
  },
  {
   "property": "C09",
   "status": "proved",
   "theorems": [
    "Zksql.C09_random_permutation",
    "Zksql.C09_random_permutation_mles",
    "Zksql.C09_identity_permutation_mles"
   ],
   "note": ""
  },
  {
   "property": "C10",
   "status": "proved",
   "theorems": [
    "Zksql.C10_evaluate_history",
    "Zksql.C10_evaluate_wrong_length",
    "Zksql.C10_add_succeeds"
   ],
   "note": ""
  },
  {
   "property": "C11",
   "status": "proved",
   "theorems": [
    "Zksql.C11_bookkeeping",
    "Zksql.C11_no_duplicate_tables",
    "Zksql.C11_evaluate_total",
    "Zksql.C11_degrees"
   ],
   "note": ""
  },
  {
   "property": "C12",
   "status": "partial",
   "theorems": [
    "Zksql.C12_violated",
    "Zksql.C12_rejected_add_same_value_partial",
    "Zksql.C12_atomic_cases_partial",
    "Zksql.C12_rejected_iff"
   ],
   "note": "False of the code: add_mle_list mutates before it returns its error (C12_violated); the _partial theorem says when a failed call leaves the polynomial unchanged."
  },
  {
   "property": "C13",
   "status": "proved",
   "theorems": [
    "Zksql.C13_materialize"
   ],
   "note": ""
  },
  {
   "property": "C14",
   "status": "proved",
   "theorems": [
    "Zksql.C14_build_eq",
    "Zksql.C14_eq_boolean",
    "Zksql.C14_rejects",
    "Zksql.C14_eq_extension"
   ],
   "note": ""
  },
  {
   "property": "C15",
   "status": "proved",
   "theorems": [
    "Zksql.C15_build_f_hat",
    "Zksql.C15_build_f_hat_rejects"
   ],
   "note": ""
  },
  {
   "property": "C16",
   "status": "proved",
   "theorems": [
    "Zksql.C16_completeness",
    "Zksql.C16_extract_sum"
   ],
   "note": ""
  },
  {
   "property": "C17",
   "status": "proved",
   "theorems": [
    "Zksql.C17_soundness",
    "Zksql.C17_bad_round",
    "Zksql.C17_applies"
   ],
   "note": ""
  },
  {
   "property": "C18",
   "status": "proved",
   "theorems": [
    "Zksql.C18_returns",
    "Zksql.C18_wrong_length_error",
    "Zksql.C18_wrong_sum_error",
    "Zksql.C18_wrong_round_error",
    "Zksql.C18_accepts_iff",
    "Zksql.C18_accepts_needs_rounds",
    "Zksql.C18_wrong_length",
    "Zksql.C18_wrong_sum",
    "Zksql.C18_short_panics",
    "Zksql.C18_unfinished"
   ],
   "note": ""
  },
  {
   "property": "C19",
   "status": "proved",
   "theorems": [
    "Zksql.C19_interpolation"
   ],
   "note": ""
  },
  {
   "property": "C20",
   "status": "partial",
   "theorems": [
    "Zksql.C20_violated",
    "Zksql.C20_total_off_nodes_partial"
   ],
   "note": "False of the code: interpolation panics when the challenge is one of the interpolation points (C20_violated)."
  },
  {
   "property": "C21",
   "status": "proved",
   "theorems": [
    "Zksql.C21_messages_are_partial_sums"
   ],
   "note": ""
  },
  {
   "property": "C22",
   "status": "proved",
   "theorems": [
    "Zksql.C22_refusals",
    "Zksql.C22_in_order"
   ],
   "note": ""
  },
  {
   "property": "C23",
   "status": "proved",
   "theorems": [
    "Zksql.C23_same_challenges_always",
    "Zksql.C23_same_challenges"
   ],
   "note": ""
  },
  {
   "property": "C24",
   "status": "proved",
   "theorems": [
    "Zksql.C24_zerocheck_completeness",
    "Zksql.C24_empty_transcript"
   ],
   "note": ""
  },
  {
   "property": "C25",
   "status": "proved",
   "theorems": [
    "Zksql.C25_zerocheck_soundness",
    "Zksql.C25_zerocheck_bad_event"
   ],
   "note": ""
  },
  {
   "property": "C26",
   "status": "proved",
   "theorems": [
    "Zksql.C26_refused_iff_empty",
    "Zksql.C26_challenge_absorbed",
    "Zksql.C26_nothing_forgotten",
    "Zksql.C26_deterministic"
   ],
   "note": ""
  },
  {
   "property": "C27",
   "status": "proved",
   "theorems": [
    "Zksql.C27_completeness",
    "Zksql.C27_homomorphic"
   ],
   "note": ""
  },
  {
   "property": "C28",
   "status": "proved",
   "theorems": [
    "Zksql.C28_one_value",
    "Zksql.C28_wrong_value_rejected"
   ],
   "note": ""
  },
  {
   "property": "C29",
   "status": "proved",
   "theorems": [
    "Zksql.C29_generation",
    "Zksql.C29_trim",
    "Zksql.C29_rejects"
   ],
   "note": ""
  },
  {
   "property": "C30",
   "status": "proved",
   "theorems": [
    "Zksql.C30_rejects",
    "Zksql.C30_accepts"
   ],
   "note": ""
  },
  {
   "property": "C31",
   "status": "partial",
   "theorems": [
    "Zksql.C31_violated",
    "Zksql.C31_single_refused",
    "Zksql.C31_batch_completeness_partial"
   ],
   "note": "False of the code for a single polynomial (C31_violated, C31_single_refused); proved for two or more."
  },
  {
   "property": "C32",
   "status": "partial",
   "theorems": [
    "Zksql.C32_forgery",
    "Zksql.C32_false_values_accepted",
    "Zksql.C32_violated",
    "Zksql.C32_bound_partial"
   ],
   "note": "False of the code: C32_forgery shows that for any commitments the verifier accepts zero as every value at a shared point; C32_bound_partial gives what holds when the embedded point is the derived one."
  },
  {
   "property": "C33",
   "status": "proved",
   "theorems": [
    "Zksql.C33_next_id_prover",
    "Zksql.C33_next_id_verifier",
    "Zksql.C33_verifier_ids_fresh",
    "Zksql.C33_prover_ids_fresh"
   ],
   "note": ""
  },
  {
   "property": "C34",
   "status": "proved",
   "theorems": [
    "Zksql.C34_material_or_virtual",
    "Zksql.C34_operations_total"
   ],
   "note": ""
  },
  {
   "property": "C35",
   "status": "proved",
   "theorems": [
    "Zksql.C35_tracked_table",
    "Zksql.C35_pointwise",
    "Zksql.C35_sizes_checked",
    "Zksql.C35_scalar_pointwise",
    "Zksql.C35_increase_nv",
    "Zksql.C35_stable"
   ],
   "note": ""
  },
  {
   "property": "C36",
   "status": "proved",
   "theorems": [
    "Zksql.C36_evaluate_pointwise"
   ],
   "note": ""
  },
  {
   "property": "C37",
   "status": "partial",
   "theorems": [
    "Zksql.C37_violated",
    "Zksql.C37_evaluations_partial",
    "Zksql.C37_linear_partial"
   ],
   "note": "False of the code: reading the evaluations of a product replaces it by the multilinear extension of its table (C37_violated). The _partial theorems give what holds: other handles, hypercube points, histories without products."
  },
  {
   "property": "C38",
   "status": "proved",
   "theorems": [
    "Zksql.C38_increase_nv_front",
    "Zksql.C38_increase_nv_back",
    "Zksql.C38_shrinking_panics"
   ],
   "note": ""
  },
  {
   "property": "C39",
   "status": "proved",
   "theorems": [
    "Zksql.C39_to_arith_faithful"
   ],
   "note": ""
  },
  {
   "property": "C40",
   "status": "proved",
   "theorems": [
    "Zksql.C40_commit_atomic"
   ],
   "note": ""
  },
  {
   "property": "C41",
   "status": "proved",
   "theorems": [
    "Zksql.C41_lockstep"
   ],
   "note": ""
  },
  {
   "property": "C42",
   "status": "partial",
   "theorems": [
    "Zksql.C42_agree_partial",
    "Zksql.C42_arithmetic_faithful",
    "Zksql.C42_violated_pad",
    "Zksql.C42_violated_read",
    "Zksql.C42_answers"
   ],
   "note": "False of the code: reading a product on the prover's side, or padding a handle with increase_nv_back, makes the two sides evaluate differently (C42_violated_read, C42_violated_pad). C42_agree_partial covers every history whose calls are faithful."
  },
  {
   "property": "C43",
   "status": "partial",
   "theorems": [
    "Zksql.C43_equalise_partial",
    "Zksql.C43_violated"
   ],
   "note": "False of the code for one clause: the true sum of a claimed product is computed by materialising it, so its evaluation off the hypercube changes (C43_violated). C43_equalise_partial proves everything else, and that clause for handles without a sum claim."
  },
  {
   "property": "C44",
   "status": "proved",
   "theorems": [
    "Zksql.C44_complete",
    "Zksql.C44_sound",
    "Zksql.C44_prover",
    "Zksql.C44_verifier"
   ],
   "note": ""
  },
  {
   "property": "C45",
   "status": "partial",
   "theorems": [
    "Zksql.C45_sumcheck_partial",
    "Zksql.C45_forgery",
    "Zksql.C45_violated"
   ],
   "note": "False of the code: verify_claims never compares the sumcheck's final value with anything. C45_forgery builds an accepted proof for every verifier history, C45_violated is a concrete lie; C45_sumcheck_partial is what acceptance does imply."
  },
  {
   "property": "C46",
   "status": "partial",
   "theorems": [
    "Zksql.C46_error_partial",
    "Zksql.C46_violated"
   ],
   "note": "False of the code: the Boolean returned by batch_verify is dropped (C46_violated). C46_error_partial characterises acceptance exactly."
  },
  {
   "property": "C47",
   "status": "partial",
   "theorems": [
    "Zksql.C47_keys_partial",
    "Zksql.C47_violated"
   ],
   "note": "False of the code: the query map has the right keys and only zeros (C47_keys_partial, C47_violated)."
  },
  {
   "property": "C48",
   "status": "partial",
   "theorems": [
    "Zksql.C48_identity_partial",
    "Zksql.C48_violated"
   ],
   "note": "False of the code for commitments: TrackedComm equality ignores the identifier (C48_violated). Proved for polynomial handles and trackers."
  },
  {
   "property": "C49",
   "status": "partial",
   "theorems": [
    "Zksql.C49_prover_isolated",
    "Zksql.C49_prover_copy",
    "Zksql.C49_verifier_copy",
    "Zksql.C49_verifier_partial",
    "Zksql.C49_violated",
    "Zksql.C49_violated_evals"
   ],
   "note": "Proved for prover trackers (C49_prover_isolated, C49_prover_copy). False for verifier trackers, whose copies share their maps (C49_violated, C49_violated_evals); C49_verifier_partial gives what holds."
  },
  {
   "property": "C50",
   "status": "proved",
   "theorems": [
    "Zksql.C50_honest_accepted"
   ],
   "note": ""
  },
  {
   "property": "C51",
   "status": "partial",
   "theorems": [
    "Zksql.C51_compiles_partial",
    "Zksql.C51_single_refused",
    "Zksql.C51_violated",
    "Zksql.C51_nothing_panics"
   ],
   "note": "False of the code for exactly one commitment (C51_single_refused, C51_violated); proved for two or more."
  },
  {
   "property": "C52",
   "status": "proved",
   "theorems": [
    "Zksql.C52_multiset_complete"
   ],
   "note": "Whole protocol run of prover and verifier from any ready state; exceptional challenges are exactly the values in the bags."
  },
  {
   "property": "C53",
   "status": "proved",
   "theorems": [
    "Zksql.C53_multiset_sound"
   ],
   "note": "For any adversarial polynomials behind the commitments; exceptional challenges bounded by the number of table entries and fixed before the challenge."
  },
  {
   "property": "C54",
   "status": "partial",
   "theorems": [
    "Zksql.C54_prover_partial",
    "Zksql.C54_verifier",
    "Zksql.C54_violated"
   ],
   "note": "Violated: a selector shorter than its bag makes the prover panic. What holds is in the partial theorem."
  },
  {
   "property": "C55",
   "status": "proved",
   "theorems": [
    "Zksql.C55_bag_equality_sound",
    "Zksql.C55_bag_equality_complete"
   ],
   "note": "Soundness for every pair of bags (also of different sizes) against an arbitrary prover, and honest runs from any ready state."
  },
  {
   "property": "C56",
   "status": "proved",
   "theorems": [
    "Zksql.C56_bag_sum_sound",
    "Zksql.C56_bag_sum_complete"
   ],
   "note": "Soundness against an arbitrary prover, and honest runs from any ready state, for arbitrary table sizes."
  },
  {
   "property": "C57",
   "status": "proved",
   "theorems": [
    "Zksql.C57_inclusion_sound",
    "Zksql.C57_inclusion_advice_sound",
    "Zksql.C57_inclusion_complete",
    "Zksql.C57_inclusion_advice_complete"
   ],
   "note": "Soundness for adversarial multiplicities with a 0/1 selector on the included side; honest runs with computed and with given multiplicities."
  },
  {
   "property": "C58",
   "status": "proved",
   "theorems": [
    "Zksql.C58_inclusion_advice",
    "Zksql.C58_totals"
   ],
   "note": ""
  },
  {
   "property": "C59",
   "status": "proved",
   "theorems": [
    "Zksql.C59_no_zeros_iff",
    "Zksql.C59_no_zeros_complete"
   ],
   "note": "Both directions; the selector is arbitrary."
  },
  {
   "property": "C60",
   "status": "proved",
   "theorems": [
    "Zksql.C60_selector_valid_iff",
    "Zksql.C60_selector_valid_complete"
   ],
   "note": "Both directions."
  },
  {
   "property": "C61",
   "status": "partial",
   "theorems": [
    "Zksql.C61_prescribed_permutation_complete_partial",
    "Zksql.C61_prescribed_permutation_sound_partial",
    "Zksql.C61_honest_violated"
   ],
   "note": "Soundness, and honest runs, with true claims when they are checked over the hypercube of the tables. The honest direction is false over larger hypercubes (C61_honest_violated)."
  },
  {
   "property": "C62",
   "status": "partial",
   "theorems": [
    "Zksql.C62_strict_sort_complete_partial",
    "Zksql.C62_strict_sort_sound_partial",
    "Zksql.C62_size_sound",
    "Zksql.C62_honest_violated"
   ],
   "note": "Soundness, and honest runs, with true claims when they are checked over the hypercube of the sorted bag. The honest direction is false over larger hypercubes (C62_honest_violated): acceptance implies that the hypercube is that of the bag (C62_size_sound)."
  },
  {
   "property": "C63",
   "status": "proved",
   "theorems": [
    "Zksql.C63_support_complete",
    "Zksql.C63_support_sound",
    "Zksql.C63_support_advice_sound",
    "Zksql.C63_size_sound"
   ],
   "note": "What the claims imply for 0/1 bags, over any committed multiplicities; also honest runs."
  },
  {
   "property": "C64",
   "status": "proved",
   "theorems": [
    "Zksql.C64_support_advice"
   ],
   "note": ""
  },
  {
   "property": "C65",
   "status": "partial",
   "theorems": [
    "Zksql.C65_disjoint_complete_partial",
    "Zksql.C65_set_disjoint_complete_partial",
    "Zksql.C65_violated_set_disjoint",
    "Zksql.C65_disjoint_sound_partial",
    "Zksql.C65_set_disjoint_sound_partial",
    "Zksql.C65_disjoint_size_sound",
    "Zksql.C65_set_disjoint_size_sound",
    "Zksql.C65_honest_violated"
   ],
   "note": "Multiset version sound; set version assumes the prover's sum selector is 0/1, which the code does not check (C65_violated_set_disjoint). Honest runs, with true claims when they are checked over the hypercube of the sum bag; false over larger ones (C65_honest_violated)."
  },
  {
   "property": "C66",
   "status": "partial",
   "theorems": [
    "Zksql.C66_set_union_complete_partial",
    "Zksql.C66_set_diff_complete_partial",
    "Zksql.C66_set_intersect_complete_partial",
    "Zksql.C66_violated_set_diff",
    "Zksql.C66_violated_set_intersect",
    "Zksql.C66_set_union_sound",
    "Zksql.C66_set_diff_sound_partial",
    "Zksql.C66_set_intersect_sound_partial"
   ],
   "note": "Soundness of the set union, difference and intersection checks against an arbitrary prover. Difference and intersection assume the committed selector of the internal sum bag is 0/1, which the code does not enforce. Honest runs of all three."
  },
  {
   "property": "C67",
   "status": "partial",
   "theorems": [
    "Zksql.C67_split_partial",
    "Zksql.C67_set_split_partial",
    "Zksql.C67_violated"
   ],
   "note": "Violated: the split advice reads the unsorted values, so common values can be missed. What holds is in the partial theorem."
  },
  {
   "property": "C68",
   "status": "partial",
   "theorems": [
    "Zksql.C68_rows",
    "Zksql.C68_prover",
    "Zksql.C68_in_step",
    "Zksql.C68_verifier_partial",
    "Zksql.C68_unequal_fails",
    "Zksql.C68_front_alias",
    "Zksql.C68_back_alias",
    "Zksql.C68_violated"
   ],
   "note": "Violated: the verifier's back alias reads as many coordinates as the first table has variables, so the crossed columns are wrong (and the run fails) when the tables have different sizes (C68_violated, C68_unequal_fails). Proved: the prover's table is the cross product for all tables (C68_rows, C68_prover), the trackers stay in step (C68_in_step), the alias helpers (C68_front_alias, C68_back_alias), and the verifier for tables of equal size (C68_verifier_partial)."
  },
  {
   "property": "C69",
   "status": "proved",
   "theorems": [
    "Zksql.C69_join_reduction_advice",
    "Zksql.C69_join_reduction_complete",
    "Zksql.C69_size_sound",
    "Zksql.C69_join_reduction_sound"
   ],
   "note": "The computed selectors, soundness of the check against an arbitrary prover, and honest runs over the hypercube the check requires."
  },
  {
   "property": "C70",
   "status": "partial",
   "theorems": [
    "Zksql.C70_index_transform_sound_partial",
    "Zksql.C70_single_column",
    "Zksql.C70_violated"
   ],
   "note": "Violated: rows are combined by product, so the rows (2, 3) and (3, 2) are confused. Proved: the products of the rows agree, and the full claim for tables with one column."
  },
  {
   "property": "C71",
   "status": "proved",
   "theorems": [
    "Zksql.C71_index_column",
    "Zksql.C71_error",
    "Zksql.C71_moved_column"
   ],
   "note": ""
  },
  {
   "property": "C72",
   "status": "partial",
   "theorems": [
    "Zksql.C72_prover_result",
    "Zksql.C72_verifier_result",
    "Zksql.C72_counts_partial",
    "Zksql.C72_count_sum_no_panic_partial",
    "Zksql.C72_todo_panics",
    "Zksql.C72_verify_panics",
    "Zksql.C72_malformed_partial",
    "Zksql.C72_no_grouping_column_panics",
    "Zksql.C72_no_group_column_panics",
    "Zksql.C72_columns_violated",
    "Zksql.C72_aggregates_violated",
    "Zksql.C72_malformed_violated",
    "Zksql.C72_violated"
   ],
   "note": "All three parts are violated: sums have no column, averages, minima and maxima panic, and so do requests without a grouping or group column. Proved: the exact result of every successful call, counts-only requests, no panic for counts and sums, and rejection of the other malformed requests."
  },
  {
   "property": "C73",
   "status": "proved",
   "theorems": [
    "Zksql.C73_reachable",
    "Zksql.C73_new",
    "Zksql.C73_then",
    "Zksql.C73_multitool",
    "Zksql.C73_bag_eq",
    "Zksql.C73_bag_sum",
    "Zksql.C73_no_zeros",
    "Zksql.C73_selector_valid",
    "Zksql.C73_inclusion",
    "Zksql.C73_inclusion_with_advice",
    "Zksql.C73_presc_perm",
    "Zksql.C73_strict_sort",
    "Zksql.C73_supp",
    "Zksql.C73_supp_with_advice",
    "Zksql.C73_bag_disjoint",
    "Zksql.C73_bag_disjoint_with_advice",
    "Zksql.C73_set_disjoint",
    "Zksql.C73_set_diff",
    "Zksql.C73_set_union",
    "Zksql.C73_set_intersect",
    "Zksql.C73_join_reduction",
    "Zksql.C73_sampled_rands",
    "Zksql.C73_index_transform",
    "Zksql.C73_cross_product",
    "Zksql.C73_final_join",
    "Zksql.C73_final_join_with_advice",
    "Zksql.C73_group_by"
   ],
   "note": ""
  },
  {
   "property": "C74",
   "status": "partial",
   "theorems": [
    "Zksql.C74_malleable",
    "Zksql.C74_not_of_accepted",
    "Zksql.C74_violated",
    "Zksql.C74_sum_bound_partial",
    "Zksql.C74_accepted_values_partial"
   ],
   "note": "False of the code: C74_malleable alters the values of any accepted batch proof."
  },
  {
   "property": "C75",
   "status": "proved",
   "theorems": [
    "Zksql.C75_algebraic_soundness",
    "Zksql.C75_honest_commitment"
   ],
   "note": ""
  },
  {
   "property": "C76",
   "status": "proved",
   "theorems": [
    "Zksql.C76_binding"
   ],
   "note": ""
  },
  {
   "property": "C77",
   "status": "partial",
   "theorems": [
    "Zksql.C77_opening_partial",
    "Zksql.C77_violated"
   ],
   "note": "False of the code for columns of different sizes (C77_violated); proved when all committed tables have the largest size."
  },
  {
   "property": "C78",
   "status": "partial",
   "theorems": [
    "Zksql.C78_same_values_partial",
    "Zksql.C78_violated",
    "Zksql.C78_full_panics",
    "Zksql.C78_full_panics_right",
    "Zksql.C78_wrong_value"
   ],
   "note": "Violated: the split with multiplicities panics at the end of a bag and pushes the value after the run. What holds is in the partial theorem."
  },
  {
   "property": "C79",
   "status": "partial",
   "theorems": [
    "Zksql.C79_group_by_sound_partial",
    "Zksql.C79_violated"
   ],
   "note": "Violated: the selector of the groups is not checked to be 0/1, so selector 2 with half the multiplicity is accepted. Proved: the weighted claim, and the full claim when the selector is 0/1."
  },
  {
   "property": "C80",
   "status": "partial",
   "theorems": [
    "Zksql.C80_size_sound",
    "Zksql.C80_honest_violated",
    "Zksql.C80_small_violated",
    "Zksql.C80_group_by_complete_partial",
    "Zksql.C80_group_by_result"
   ],
   "note": "Violated when the groups are in columns shorter than the table (C80_small_violated) and when the proof has a larger column (C80_honest_violated). Proved for groups of the size of the table. The returned table has no column for requested sums (C72)."
  },
  {
   "property": "C81",
   "status": "proved",
   "theorems": [
    "Zksql.C81_index_transform_complete"
   ],
   "note": ""
  },
  {
   "property": "C82",
   "status": "proved",
   "theorems": [
    "Zksql.C82_join_complete",
    "Zksql.C82_join_result"
   ],
   "note": ""
  },
  {
   "property": "C83",
   "status": "partial",
   "theorems": [
    "Zksql.C83_join_sound_partial",
    "Zksql.C83_single_column",
    "Zksql.C83_join_advice_sound_partial",
    "Zksql.C83_violated"
   ],
   "note": "Violated: the received rows are compared by product, so keys that do not occur in the first table are accepted. Proved: the keys agree with the second table and the products with rows of the first."
  },
  {
   "property": "C84",
   "status": "proved",
   "theorems": [
    "Zksql.C84_accepts",
    "Zksql.C84_protocol",
    "Zksql.C84_from_scratch",
    "Zksql.C84_multiset",
    "Zksql.C84_bag_equality",
    "Zksql.C84_bag_sum",
    "Zksql.C84_inclusion",
    "Zksql.C84_inclusion_advice",
    "Zksql.C84_no_zeros",
    "Zksql.C84_selector_valid",
    "Zksql.C84_prescribed_permutation",
    "Zksql.C84_strict_sort",
    "Zksql.C84_support",
    "Zksql.C84_disjoint",
    "Zksql.C84_set_disjoint",
    "Zksql.C84_set_union",
    "Zksql.C84_set_diff",
    "Zksql.C84_set_intersect",
    "Zksql.C84_join_reduction",
    "Zksql.C84_index_transform",
    "Zksql.C84_join",
    "Zksql.C84_group_by"
   ],
   "note": "One theorem per protocol, from the completeness theorem of that protocol; the data called valid is the same (the group-by still needs groups of the size of the table); no relation between the sizes of the columns is needed, because the final comparison is left out (C45). The cross product records no claims and has no theorem of its own here. Exceptional challenges are counted for the protocol; for the sumchecks they are the interpolation nodes (C20). Proofs with a single commitment are excluded (C51)."
  },
  {
   "property": "C85",
   "status": "proved",
   "theorems": [
    "Zksql.C85_program_complete",
    "Zksql.C85_program_columns",
    "Zksql.C85_program_accepted",
    "Zksql.C85_program_from_scratch"
   ],
   "note": ""
  },
  {
   "property": "C86",
   "status": "proved",
   "theorems": [
    "Zksql.C86_program_sound",
    "Zksql.C86_program_from_scratch"
   ],
   "note": ""
  },
  {
   "property": "C87",
   "status": "partial",
   "theorems": [
    "Zksql.C87_equal_sizes_partial",
    "Zksql.C87_unequal_rejected",
    "Zksql.C87_violated"
   ],
   "note": "Violated: whatever is sent, the claims for key columns of different sizes are false except for few challenges (C87_unequal_rejected). Proved for equal sizes."
  },
  {
   "property": "C88",
   "status": "proved",
   "theorems": [
    "Zksql.C88_mixed_refused",
    "Zksql.C88_debug_constructors",
    "Zksql.C88_prover_alone",
    "Zksql.C88_verifier_alone",
    "Zksql.C88_copies",
    "Zksql.C88_handles_live"
   ],
   "note": ""
  },
  {
   "property": "C89",
   "status": "partial",
   "theorems": [
    "Zksql.C89_refuses_partial",
    "Zksql.C89_own_handles",
    "Zksql.C89_own_handles_verifier",
    "Zksql.C89_selector_foreign",
    "Zksql.C89_violated"
   ],
   "note": "Violated by the selector check (C89_selector_foreign, C89_violated). Proved for the multiset check, equality, sum and no-zeros, prover and verifier, and for own handles."
  },
  {
   "property": "C90",
   "status": "partial",
   "theorems": [
    "Zksql.C90_well_shaped_partial",
    "Zksql.C90_malformed_panics",
    "Zksql.C90_untracked_panics",
    "Zksql.C90_violated",
    "Zksql.C90_reasons"
   ],
   "note": "False of the code: malformed proofs panic (C90_malformed_panics, C90_untracked_panics, C90_violated). Proved for proofs of the right shape and challenges off the interpolation nodes."
  },
  {
   "property": "C91",
   "status": "proved",
   "theorems": [
    "Zksql.C91_reads",
    "Zksql.C91_other",
    "Zksql.C91_call",
    "Zksql.C91_history",
    "Zksql.C91_inside",
    "Zksql.C91_inside_writes",
    "Zksql.C91_inside_copies",
    "Zksql.C91_inside_copy",
    "Zksql.C91_exclusive"
   ],
   "note": "All calls of VerifierTrackerRef and TrackedComm with the borrows they open; functions given to track_virtual_comm are modelled as called with the open borrows (C91_inside), their own calls are covered by C91_reads, C91_inside_writes, C91_inside_copies, C91_other."
  },
  {
   "property": "C92",
   "status": "partial",
   "theorems": [
    "Zksql.C92_held_kept",
    "Zksql.C92_prover",
    "Zksql.C92_verifier",
    "Zksql.C92_computed_kept",
    "Zksql.C92_violated",
    "Zksql.C92_only_inputs_partial"
   ],
   "note": "False of verifiers (C92_violated, C92_computed_kept): closures of computed handles hold the map they are stored in. C92_prover and C92_verifier say exactly what is released."
  },
  {
   "property": "C93",
   "status": "partial",
   "theorems": [
    "Zksql.C93_own_handles",
    "Zksql.C93_own_handles_verifier",
    "Zksql.C93_own_tables",
    "Zksql.C93_own_tables_verifier",
    "Zksql.C93_refuses",
    "Zksql.C93_refuses_verifier",
    "Zksql.C93_refuses_tables",
    "Zksql.C93_refuses_tables_verifier",
    "Zksql.C93_unused_handles",
    "Zksql.C93_returned_partial",
    "Zksql.C93_mixed_table",
    "Zksql.C93_violated",
    "Zksql.C93_mixed_join"
   ],
   "note": "False of returned tables (C93_violated). Refusal and independence hold for every handle whose values are used; C93_unused_handles names handles that are ignored."
  },
  {
   "property": "C94",
   "status": "partial",
   "theorems": [
    "Zksql.C94_unbound",
    "Zksql.C94_exchange",
    "Zksql.C94_any_sum",
    "Zksql.C94_bag_equality",
    "Zksql.C94_false_equality",
    "Zksql.C94_violated"
   ],
   "note": "False of the code (C94_violated): the sums are not absorbed before the challenges that fold them. C94_unbound holds for every history; C94_bag_equality and C94_false_equality are the resulting false equalities, which the comparisons missing in C45/C46 would not catch."
  },
  {
   "property": "C95",
   "status": "proved",
   "theorems": [
    "Zksql.C95_claims",
    "Zksql.C95_reachable",
    "Zksql.C95_degree",
    "Zksql.C95_closures",
    "Zksql.C95_program"
   ],
   "note": "A positive statement about verify_claims plus the comparison it leaves out (C45). The exceptional sets of the challenges drawn by the verification depend on the recorded sums, because nothing binds these to the transcript (C94). The degree and the number of variables of the sumcheck are taken from the proof, hence the maximum in the bound."
  },
  {
   "property": "C96",
   "status": "partial",
   "theorems": [
    "Zksql.C96_release_partial",
    "Zksql.C96_debug_multilinear",
    "Zksql.C96_violated_debug",
    "Zksql.C96_violated_release"
   ],
   "note": "False of the code in debug builds (C96_violated_debug) and for sums of products in release builds (C96_violated_release). C96_release_partial: release builds, if reading the evaluations of the summed polynomials changes nothing. C96_debug_multilinear says what a debug build proves instead."
  },
  {
   "property": "C97",
   "status": "partial",
   "theorems": [
    "Zksql.C97_tables",
    "Zksql.C97_prover",
    "Zksql.C97_round",
    "Zksql.C97_violated",
    "Zksql.C97_accepts_partial",
    "Zksql.C97_lengths_partial",
    "Zksql.C97_verify_claims_partial"
   ],
   "note": "Prover, tables and acceptance are independent of the schedule (C97_tables, C97_round, C97_prover, C97_accepts_partial, C97_verify_claims_partial). Violated for rejections: the same malformed proof can be rejected with an error or by a panic (C97_violated); with messages of the expected length the whole answer is independent (C97_lengths_partial)."
  },
  {
   "property": "C98",
   "status": "partial",
   "theorems": [
    "Zksql.C98_reveals",
    "Zksql.C98_every_guess_is_answered",
    "Zksql.C98_told_apart",
    "Zksql.C98_wrong_guess_refuted",
    "Zksql.C98_violated"
   ],
   "note": "Refuted: commitments are unblinded and part of the proof (C98_violated). Proved instead: exactly what the proof reveals about a committed column, for every history (C98_reveals, C98_every_guess_is_answered, C98_told_apart), and the count of trapdoors for which a wrong guess passes (C98_wrong_guess_refuted)."
  },
  {
   "property": "C99",
   "status": "proved",
   "theorems": [
    "Zksql.C99_same_state",
    "Zksql.C99_protocol",
    "Zksql.C99_program"
   ],
   "note": "For histories of the handle API (C99_same_state), for every protocol with a completeness theorem (C99_protocol) and for programs of steps (C99_program). The last two are for valid data and non-exceptional challenges."
  },
  {
   "property": "C100",
   "status": "partial",
   "theorems": [
    "Zksql.C100_session_partial",
    "Zksql.C100_violated"
   ],
   "note": "Refuted when a later round has a larger column: the verifier keeps sums it read from the first proof, the prover recomputes them (C100_violated). Proved for sessions of any number of rounds in which all tables have the same number of variables; both trackers are level at the end."
  },
  {
   "property": "C101",
   "status": "partial",
   "theorems": [
    "Zksql.C101_repeated",
    "Zksql.C101_largest_partial",
    "Zksql.C101_violated"
   ],
   "note": "Refuted for handles smaller than the largest table (C101_violated). Proved for handles of the largest size; for all others the table is repeated up to the largest size (C101_repeated)."
  },
  {
   "property": "C102",
   "status": "proved",
   "theorems": [
    "Zksql.C102_history",
    "Zksql.C102_values",
    "Zksql.C102_proof",
    "Zksql.C102_verdict",
    "Zksql.C102_verifier_values",
    "Zksql.C102_checks",
    "Zksql.C102_tables",
    "Zksql.C102_program",
    "Zksql.C102_program_proof",
    "Zksql.C102_program_verdict",
    "Zksql.C102_advice"
   ],
   "note": "SameContents/SameProof/SameVerifier say what may differ; the theorems run the calls of the model once as they are and once with memory rearranged before every call or step and between the statements of compile_proof and verify_claims, by any function that only rearranges. C102_advice is about the hash maps inside the advice computations: the sort of bag_disjoint needs the order of the field elements to be antisymmetric (rep injective)."
  },
  {
   "property": "C103",
   "status": "proved",
   "theorems": [
    "Zksql.C103_prover",
    "Zksql.C103_column",
    "Zksql.C103_verifier",
    "Zksql.C103_not_reused"
   ],
   "note": "All calls of the prover's and verifier's API except compile and verify_claims (see C100, C101), with arbitrary arguments; the state after a panic is the state reached when it happens."
  },
  {
   "property": "C104",
   "status": "partial",
   "theorems": [
    "Zksql.C104_operations_partial",
    "Zksql.C104_refused_partial",
    "Zksql.C104_leftover",
    "Zksql.C104_next_proof",
    "Zksql.C104_violated"
   ],
   "note": "Violated: an inclusion (or support, difference, sum) check with multiplicities of the wrong size tracks a table before it is refused, so the prover's identifiers run ahead and the next proof is rejected. Proved for handle operations, challenges and for the checks that look at sizes first."
  },
  {
   "property": "C105",
   "status": "partial",
   "theorems": [
    "Zksql.C105_unread",
    "Zksql.C105_unread_program",
    "Zksql.C105_altered",
    "Zksql.C105_complete_partial",
    "Zksql.C105_violated"
   ],
   "note": "Violated: the answers to queries (query_map), the point inside the sumcheck proof, further round messages and further opening proofs are never read, so they can be altered freely (C105_altered, for every accepted proof of every program). Proved: exactly these parts are unread, for every sequence of calls; accepted proofs are complete. Altered claimed sums are C94, the dropped result of the opening check is C46."
  },
  {
   "property": "C106",
   "status": "partial",
   "theorems": [
    "Zksql.C106_prover",
    "Zksql.C106_refused",
    "Zksql.C106_verifier",
    "Zksql.C106_verdict",
    "Zksql.C106_commitments_partial",
    "Zksql.C106_duplicate_keys",
    "Zksql.C106_bag_sizes",
    "Zksql.C106_out_of_order",
    "Zksql.C106_violated"
   ],
   "note": "C106_prover and C106_refused cover every program; C106_verifier and C106_verdict are equalities for every program and proof; C106_commitments_partial shows that the two proofs have the same commitments. C106_violated: a debug build materialises the aggregated zero-check polynomial before proving, so its sumcheck has degree 1 where the release build has the degree of the claim. C106_duplicate_keys, C106_bag_sizes and C106_out_of_order say what only a debug build refuses."
  },
  {
   "property": "C107",
   "status": "proved",
   "theorems": [
    "Zksql.C107_sumcheck",
    "Zksql.C107_commitments",
    "Zksql.C107_claims",
    "Zksql.C107_size",
    "Zksql.C107_opening",
    "Zksql.C107_data_free"
   ],
   "note": "The numbers are functions of the list of calls (Spec/Shape.lean). Sizes are counted in field elements and group elements, not in serialised bytes; the auxiliary information and identifiers are not counted."
  },
  {
   "property": "C108",
   "status": "partial",
   "theorems": [
    "Zksql.C108_violated",
    "Zksql.C108_violated_same",
    "Zksql.C108_violated_final",
    "Zksql.C108_overwritten_partial",
    "Zksql.C108_keeps",
    "Zksql.C108_kzg",
    "Zksql.C108_trace",
    "Zksql.C108_needs",
    "Zksql.C108_spoiled"
   ],
   "note": "Violated by the code: verify_claims draws challenges, absorbs the proof and adds a sum claim even when it refuses. C108_trace gives the exact state for any proof and verdict; C108_needs gives the condition on the challenges drawn after the refused round that any later accepted proof meets, and C108_spoiled that with a nonzero claimed sum just one value of the challenge meets it. C108_keeps also extends C103 over verify_claims. The failing transcript is modelled exactly for the KZG scheme; for other schemes it is a parameter."
  },
  {
   "property": "C109",
   "status": "proved",
   "theorems": [
    "Zksql.C109_false_zeros_refused",
    "Zksql.C109_program"
   ],
   "note": "C109_false_zeros_refused is about any prover state with true claimed sums (the library's checks compute the sums they claim from the tables: the step to SumsTrueP is part of C109_program) and any opening scheme: not even binding is needed. C109_program covers whole programs of C85 from new trackers; the polynomials P behind the commitments are assumed to agree with what the prover has committed to (OpensRun), and the sizes are as in C85 (ExactAll). Examples: a false program refused in debug, refused by the verifier in release, and accepted with an exceptional challenge."
  },
  {
   "property": "C110",
   "status": "partial",
   "theorems": [
    "Zksql.C110_violated",
    "Zksql.C110_prover_calls",
    "Zksql.C110_prover_side",
    "Zksql.C110_kzg_commit",
    "Zksql.C110_verifier_calls",
    "Zksql.C110_verifier_side_partial",
    "Zksql.C110_compile",
    "Zksql.C110_verify_claims",
    "Zksql.C110_verify_claims_kzg",
    "Zksql.C110_sumcheck",
    "Zksql.C110_never_invalid_proof"
   ],
   "note": "Violated by the code: verify_claims returns InvalidProver when the opening's sumcheck does not verify (C110_violated), and InvalidProof never (C110_never_invalid_proof). Everything else holds: the kinds of all prover and verifier calls, of compile_proof and of verify_claims are classified. The model flattens nested error types, so a wrapped error counts with its own kind."
  },
  {
   "property": "C111",
   "status": "proved",
   "theorems": [
    "Zksql.C111_program",
    "Zksql.C111_fixed_proof",
    "Zksql.C111_call",
    "Zksql.C111_session",
    "Zksql.C111_session_fixed_proof",
    "Zksql.C111_own_prover"
   ],
   "note": "C111_program: untrusted prover, the verifier's side of a program (exceptions of C86). C111_fixed_proof: a proof prepared in advance, with nothing assumed of how it was made. C111_call: any single call. C111_session: the whole session with the comparison of C95. C111_session_fixed_proof: the same for a proof prepared in advance, with nothing assumed of how it was made. C111_own_prover: the library's own prover on arbitrary data, with nothing assumed of the commitment scheme. PfEx.falseSelectors111 and GEx.impossible111: concrete false programs."
  },
  {
   "property": "C112",
   "status": "proved",
   "theorems": [
    "Zksql.C112_check_prover",
    "Zksql.C112_check_verifier",
    "Zksql.C112_program_prover",
    "Zksql.C112_program_verifier",
    "Zksql.C112_proof_commitments",
    "Zksql.C112_same",
    "Zksql.C112_bounds",
    "Zksql.C112_session_fixed_proof",
    "Zksql.C112_own_prover"
   ],
   "note": "C112_check_prover, C112_check_verifier: a check on either side. C112_program_prover, C112_program_verifier, C112_same: programs. C112_proof_commitments: the number of commitments in a proof. C112_bounds: the bounds of C86 are for as many challenges as the table says. C112_session_fixed_proof, C112_own_prover: the bounds of C111 without a condition on the number of claims. GEx.spent112: a concrete run."
  },
  {
   "property": "C113",
   "status": "proved",
   "theorems": [
    "Zksql.C113_program",
    "Zksql.C113_check",
    "Zksql.C113_from_scratch",
    "Zksql.C113_session_fixed_proof"
   ],
   "note": "C113_check, C113_program, C113_from_scratch: the bounds. C113_session_fixed_proof: the bound of C111 without a condition on the claims. VerEx.attained_kinds, VerEx.attained_join: for each kind of check a run attains the bound."
  },
  {
   "property": "C114",
   "status": "proved",
   "theorems": [
    "Zksql.C114_compilable",
    "Zksql.C114_compilable_columns",
    "Zksql.C114_accepted",
    "Zksql.C114_own_prover"
   ],
   "note": "C114_compilable, C114_compilable_columns: the condition suffices. C114_accepted: valid data is accepted from scratch. C114_own_prover: the probability of C112. PfEx.accepted114, PfEx.falseSelectors114, GEx.compiles114: concrete programs."
  },
  {
   "property": "C115",
   "status": "partial",
   "theorems": [
    "Zksql.C115_valid_partial",
    "Zksql.C115_means_partial",
    "Zksql.C115_join_columns",
    "Zksql.C115_accepted_partial",
    "Zksql.C115_violated_sort",
    "Zksql.C115_violated"
   ],
   "note": "False of the code for columns checked to be sorted: C115_violated (same bag, accepted with one content of the inactive row and refused with others), C115_violated_sort (for any data, any inactive row but the first can be filled so that the check is false). The same holds of the checks that sort a column given to them (support, union, group-by) and of the prescribed permutation, which has no selector. Proved for all other columns: C115_valid_partial, C115_means_partial, C115_join_columns, C115_accepted_partial."
  },
  {
   "property": "C116",
   "status": "partial",
   "theorems": [
    "Zksql.C116_valid_partial",
    "Zksql.C116_means_partial",
    "Zksql.C116_accepted_partial",
    "Zksql.C116_violated_bagEq",
    "Zksql.C116_violated"
   ],
   "note": "False of the code for the equality check: C116_violated_bagEq (the prover refuses any two bags stored in different numbers of rows), C116_violated (the same two bags: accepted in two and two rows, refused in two and four, while both inclusions are accepted). Proved: C116_valid_partial, C116_means_partial (what an accepted check says; for the disjointness check with the larger bag in as many rows), C116_accepted_partial. Columns that have to be sorted, prescribed permutations, and the join reduction are compared row by row."
  },
  {
   "property": "C117",
   "status": "proved",
   "theorems": [
    "Zksql.C117_valid",
    "Zksql.C117_compiles",
    "Zksql.C117_accepted",
    "Zksql.C117_means",
    "Zksql.C117_sound"
   ],
   "note": "C117_valid, C117_compiles, C117_accepted (any interleaving), C117_means, C117_sound (checks that follow each other, anywhere in a program)."
  },
  {
   "property": "C118",
   "status": "proved",
   "theorems": [
    "Zksql.C118_valid_means",
    "Zksql.C118_exact",
    "Zksql.C118_accepted"
   ],
   "note": "C118_valid_means (all checks), C118_exact (the named checks), C118_accepted (sessions). For checks of tables the converse is false: what is concluded is about products of rows (C70, C83)."
  },
  {
   "property": "C119",
   "status": "proved",
   "theorems": [
    "Zksql.C119_valid",
    "Zksql.C119_means",
    "Zksql.C119_size",
    "Zksql.C119_compiles",
    "Zksql.C119_accepted",
    "Zksql.C119_sound"
   ],
   "note": "C119_valid, C119_means (renaming), C119_compiles, C119_accepted (sessions), C119_sound. C119_size: the meaning of a check does not depend on the size of the largest table, except for order and permutation, where a larger column in the session does change what is concluded (see C61, C62)."
  },
  {
   "property": "C120",
   "status": "proved",
   "theorems": [
    "Zksql.C120_valid",
    "Zksql.C120_means",
    "Zksql.C120_accepted",
    "Zksql.C120_sound"
   ],
   "note": "C120_valid, C120_means, C120_accepted, C120_sound (for programs of arithmetic and checks). The degree of a computed column may be too large to be compiled, see C113 and C114."
  },
  {
   "property": "C121",
   "status": "proved",
   "theorems": [
    "Zksql.C121_compiles",
    "Zksql.C121_valid",
    "Zksql.C121_accepted",
    "Zksql.C121_sound"
   ],
   "note": "C121_compiles, C121_valid, C121_accepted, C121_sound."
  }
 ]
}