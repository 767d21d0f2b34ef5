{
 "claims": [
  {
   "property": "C01",
   "status": "proved",
   "theorems": [
    "Goslide.Props.C01_getAll_is_ring",
    "Goslide.Props.C01_getAll_perm_newest",
    "Goslide.Props.C01_add_slot",
    "Goslide.Props.C01_getAll_small"
   ],
   "note": ""
  },
  {
   "property": "C02",
   "status": "proved",
   "theorems": [
    "Goslide.Props.C02_retrieve_nonneg",
    "Goslide.Props.C02_retrieve_panics_iff",
    "Goslide.Props.C02_retrieve_no_stale"
   ],
   "note": ""
  },
  {
   "property": "C03",
   "status": "proved",
   "theorems": [
    "Goslide.Props.C03_view_stable_until_full",
    "Goslide.Props.C03_view_rewritten_when_full",
    "Goslide.Props.C03_view_rewritten_after_reset"
   ],
   "note": ""
  },
  {
   "property": "C04",
   "status": "proved",
   "theorems": [
    "Goslide.Props.C04_add_agrees",
    "Goslide.Props.C04_retrieve_agrees",
    "Goslide.Props.C04_getSize",
    "Goslide.Props.C04_getAll"
   ],
   "note": ""
  },
  {
   "property": "C05",
   "status": "partial",
   "theorems": [
    "Goslide.Props.C05_getAll_not_readonly",
    "Goslide.Props.C05_getAll_readonly_partial",
    "Goslide.Props.C05_history_partial"
   ],
   "note": "False of the code: negation proved with a witness; the _partial theorem says exactly which single Retrieve answer changes."
  },
  {
   "property": "C06",
   "status": "proved",
   "theorems": [
    "Goslide.Props.C06_retrieveRaw_refines",
    "Goslide.Props.C06_retrieve_refines",
    "Goslide.Props.C06_add_slots",
    "Goslide.Props.C06_addSingle_slot"
   ],
   "note": "rangePow < 63 (New panics at 63)."
  },
  {
   "property": "C07",
   "status": "proved",
   "theorems": [
    "Goslide.Props.C07_add_retrieve_ok_iff",
    "Goslide.Props.C07_range_too_large",
    "Goslide.Props.C07_addSingle_other_cells"
   ],
   "note": ""
  },
  {
   "property": "C08",
   "status": "proved",
   "theorems": [
    "Goslide.Props.C08_minhash_index_valid"
   ],
   "note": ""
  },
  {
   "property": "C09",
   "status": "proved",
   "theorems": [
    "Goslide.Props.C09_srp_index",
    "Goslide.Props.C09_srp_index_injective"
   ],
   "note": ""
  },
  {
   "property": "C10",
   "status": "partial",
   "theorems": [
    "Goslide.Props.C10_logBinSize",
    "Goslide.Props.C10_log8_margin",
    "Goslide.Props.C10_index_not_injective",
    "Goslide.Props.C10_index_value_partial",
    "Goslide.Props.C10_index_injective_partial"
   ],
   "note": "False of the code (logBinSize is floor(ln 8) = 2): negation proved; _partial theorems give the exact index and the separated codes."
  },
  {
   "property": "C11",
   "status": "proved",
   "theorems": [
    "Goslide.Props.C11_dwta_index_bound",
    "Goslide.Props.C11_dwta_index_bound_attained",
    "Goslide.Props.C11_pow_bounds",
    "Goslide.Props.C11_dwta_index_in_range",
    "Goslide.Props.C11_dwta_range_needed"
   ],
   "note": "Includes the exact worst case and that 2k+2 bits are needed for k >= 2."
  },
  {
   "property": "C12",
   "status": "partial",
   "theorems": [
    "Goslide.Props.C12_wta_index_out_of_range",
    "Goslide.Props.C12_wta_index_valid_partial"
   ],
   "note": "False of the code: feature indices are used as digits, so an index can leave the table; _partial gives the sufficient condition."
  },
  {
   "property": "C13",
   "status": "proved",
   "theorems": [
    "Goslide.Props.C13_positiveOdd",
    "Goslide.Props.C13_rand1_positiveOdd"
   ],
   "note": ""
  },
  {
   "property": "C14",
   "status": "proved",
   "theorems": [
    "Goslide.Props.C14_table_is_permutations",
    "Goslide.Props.C14_dense_argmax"
   ],
   "note": ""
  },
  {
   "property": "C15",
   "status": "proved",
   "theorems": [
    "Goslide.Props.C15_rank_invariant"
   ],
   "note": ""
  },
  {
   "property": "C16",
   "status": "partial",
   "theorems": [
    "Goslide.Props.C16_sparse_dense_disagree",
    "Goslide.Props.C16_order_matters",
    "Goslide.Props.C16_positions_partial",
    "Goslide.Props.C16_densePairs_partial"
   ],
   "note": "False of the code (position used for index): negations proved; _partial covers pair lists in coordinate order."
  },
  {
   "property": "C17",
   "status": "proved",
   "theorems": [
    "Goslide.Props.C17_getHash_codes",
    "Goslide.Props.C17_getHash_too_long",
    "Goslide.Props.C17_getHashEasy_codes"
   ],
   "note": "numHashes < 2^32. Also proved: longer inputs panic."
  },
  {
   "property": "C18",
   "status": "proved",
   "theorems": [
    "Goslide.Props.C18_slots_partition"
   ],
   "note": ""
  },
  {
   "property": "C19",
   "status": "proved",
   "theorems": [
    "Goslide.Props.C19_dense_argmax"
   ],
   "note": ""
  },
  {
   "property": "C20",
   "status": "proved",
   "theorems": [
    "Goslide.Props.C20_dwta_probe",
    "Goslide.Props.C20_minhash_probe"
   ],
   "note": ""
  },
  {
   "property": "C21",
   "status": "partial",
   "theorems": [
    "Goslide.Props.C21_sparse_dense_disagree",
    "Goslide.Props.C21_order_matters",
    "Goslide.Props.C21_positions_partial"
   ],
   "note": "False of the code (position used for index): negations proved; _partial covers pair lists in coordinate order."
  },
  {
   "property": "C22",
   "status": "proved",
   "theorems": [
    "Goslide.Props.C22_order_insensitive",
    "Goslide.Props.C22_code_is_bin_max",
    "Goslide.Props.C22_panics_on_bad_index"
   ],
   "note": ""
  },
  {
   "property": "C23",
   "status": "partial",
   "theorems": [
    "Goslide.Props.C23_false_from_54",
    "Goslide.Props.C23_map_range_partial",
    "Goslide.Props.C23_false_for_63",
    "Goslide.Props.C23_divides_by_zero_from_64"
   ],
   "note": "Proved for rangePow <= 53; negation proved in binary64 for 54 to 62 (rounding) and at 63 (overflow), and from 64 on the code divides by zero."
  },
  {
   "property": "C24",
   "status": "partial",
   "theorems": [
    "Goslide.Props.C24_smallest_partial",
    "Goslide.Props.C24_not_the_largest"
   ],
   "note": "False of the code: it keeps the K smallest values (proved); negation proved."
  },
  {
   "property": "C25",
   "status": "proved",
   "theorems": [
    "Goslide.Props.C25_succeeds",
    "Goslide.Props.C25_too_few_panics",
    "Goslide.Props.C25_bad_bin_panics"
   ],
   "note": ""
  },
  {
   "property": "C26",
   "status": "partial",
   "theorems": [
    "Goslide.Props.C26_order_matters",
    "Goslide.Props.C26_positions_partial"
   ],
   "note": "False of the code (position used for index): negation proved."
  },
  {
   "property": "C27",
   "status": "proved",
   "theorems": [
    "Goslide.Props.C27_samples",
    "Goslide.Props.C27_negative"
   ],
   "note": ""
  },
  {
   "property": "C28",
   "status": "proved",
   "theorems": [
    "Goslide.Props.C28_sparse_eq_dense",
    "Goslide.Props.C28_new_sparse_eq_dense"
   ],
   "note": ""
  },
  {
   "property": "C29",
   "status": "partial",
   "theorems": [
    "Goslide.Props.C29_order_matters",
    "Goslide.Props.C29_records_partial"
   ],
   "note": "False of the code: negation proved; _partial gives the exact behaviour (only left-to-right maxima are used)."
  },
  {
   "property": "C30",
   "status": "proved",
   "theorems": [
    "Goslide.Props.C30_codes_are_bits",
    "Goslide.Props.C30_fold_sum",
    "Goslide.Props.C30_sign_of_sum",
    "Goslide.Props.C30_positive_scale",
    "Goslide.Props.C30_negate"
   ],
   "note": ""
  },
  {
   "property": "C31",
   "status": "proved",
   "theorems": [
    "Goslide.Props.C31_bounds"
   ],
   "note": ""
  },
  {
   "property": "C32",
   "status": "proved",
   "theorems": [
    "Goslide.Props.C32_sticky",
    "Goslide.Props.C32_sticky_eof"
   ],
   "note": ""
  },
  {
   "property": "C33",
   "status": "proved",
   "theorems": [
    "Goslide.Props.C33_roundtrip"
   ],
   "note": ""
  },
  {
   "property": "C34",
   "status": "partial",
   "theorems": [
    "Goslide.Props.C34_too_long_not_counted",
    "Goslide.Props.C34_line_number_partial",
    "Goslide.Props.C34_increments_partial"
   ],
   "note": "False for over-long lines (ErrTooLong): the line is not counted (proved); proved for every other case."
  },
  {
   "property": "C35",
   "status": "proved",
   "theorems": [
    "Goslide.Props.C35_left_over",
    "Goslide.Props.C35_left_over_total",
    "Goslide.Props.C35_header",
    "Goslide.Props.C35_empty_input",
    "Goslide.Props.C35_outcome_unique",
    "Goslide.Props.C35_line"
   ],
   "note": ""
  },
  {
   "property": "C36",
   "status": "proved",
   "theorems": [
    "Goslide.Props.C36_too_long",
    "Goslide.Props.C36_too_long_header",
    "Goslide.Props.C36_lines_exist"
   ],
   "note": ""
  },
  {
   "property": "C37",
   "status": "proved",
   "theorems": [
    "Goslide.Props.C37_run",
    "Goslide.Props.C37_short_period_panics"
   ],
   "note": "Also: a period shorter than one batch divides by zero (C37_short_period_panics)."
  },
  {
   "property": "C38",
   "status": "proved",
   "theorems": [
    "Goslide.Props.C38_epoch",
    "Goslide.Props.C38_batches",
    "Goslide.Props.C38_calls",
    "Goslide.Props.C38_bad_file"
   ],
   "note": ""
  },
  {
   "property": "C39",
   "status": "proved",
   "theorems": [
    "Goslide.Props.C39_evaluation",
    "Goslide.Props.C39_proportion",
    "Goslide.Props.C39_exact",
    "Goslide.Props.C39_network"
   ],
   "note": "Over any network with the two calls, and for the model network (C39_network)."
  },
  {
   "property": "C40",
   "status": "proved",
   "theorems": [
    "Goslide.Props.C40_types"
   ],
   "note": ""
  },
  {
   "property": "C41",
   "status": "proved",
   "theorems": [
    "Goslide.Props.C41_absent",
    "Goslide.Props.C41_present",
    "Goslide.Props.C41_gives_unique",
    "Goslide.Props.C41_accepts",
    "Goslide.Props.C41_errors",
    "Goslide.Props.C41_top_null",
    "Goslide.Props.C41_same_key",
    "Goslide.Props.C41_null_ints",
    "Goslide.Props.C41_null_floats"
   ],
   "note": "After tokenizing: the theorems hold for every tokenizer."
  },
  {
   "property": "C42",
   "status": "proved",
   "theorems": [
    "Goslide.Props.C42_getActivation",
    "Goslide.Props.C42_exact"
   ],
   "note": ""
  },
  {
   "property": "C43",
   "status": "proved",
   "theorems": [
    "Goslide.Props.C43_needs_active",
    "Goslide.Props.C43_after_backProp"
   ],
   "note": ""
  },
  {
   "property": "C44",
   "status": "proved",
   "theorems": [
    "Goslide.Props.C44_backProp"
   ],
   "note": ""
  },
  {
   "property": "C45",
   "status": "proved",
   "theorems": [
    "Goslide.Props.C45_getActivation",
    "Goslide.Props.C45_setlastActivation",
    "Goslide.Props.C45_incrementDelta",
    "Goslide.Props.C45_softmax",
    "Goslide.Props.C45_scalars"
   ],
   "note": ""
  },
  {
   "property": "C46",
   "status": "partial",
   "theorems": [
    "Goslide.Props.C46_false",
    "Goslide.Props.C46_shared",
    "Goslide.Props.C46_copyMirror",
    "Goslide.Props.C46_scalars_partial"
   ],
   "note": "False of the code (copyFloat64Slice returns its argument): negation proved; _partial: scalars and training states."
  },
  {
   "property": "C47",
   "status": "partial",
   "theorems": [
    "Goslide.Props.C47_false",
    "Goslide.Props.C47_false_reuse",
    "Goslide.Props.C47_history_partial",
    "Goslide.Props.C47_disj"
   ],
   "note": "False of the code: negations proved; _partial over all histories of cowIds that own no part of the node."
  },
  {
   "property": "C48",
   "status": "proved",
   "theorems": [
    "Goslide.Props.C48_getters",
    "Goslide.Props.C48_setters",
    "Goslide.Props.C48_train",
    "Goslide.Props.C48_backProp"
   ],
   "note": ""
  },
  {
   "property": "C49",
   "status": "partial",
   "theorems": [
    "Goslide.Props.C49_false",
    "Goslide.Props.C49_sgd_partial"
   ],
   "note": "False of the code (mirror weights are the weights): negation proved; _partial: exact effect."
  },
  {
   "property": "C50",
   "status": "partial",
   "theorems": [
    "Goslide.Props.C50_firstLayer_partial",
    "Goslide.Props.C50_false"
   ],
   "note": "False of the code without Adam (lr + delta): negation proved; _partial: exact effect."
  },
  {
   "property": "C51",
   "status": "partial",
   "theorems": [
    "Goslide.Props.C51_false",
    "Goslide.Props.C51_softmax_partial"
   ],
   "note": "False of the code for labels with batch size >= 2: negation proved; _partial: the other cases."
  },
  {
   "property": "C52",
   "status": "proved",
   "theorems": [
    "Goslide.Props.C52_full"
   ],
   "note": ""
  },
  {
   "property": "C53",
   "status": "proved",
   "theorems": [
    "Goslide.Props.C53_mode4",
    "Goslide.Props.C53_total"
   ],
   "note": ""
  },
  {
   "property": "C54",
   "status": "partial",
   "theorems": [
    "Goslide.Props.C54_false",
    "Goslide.Props.C54_partial"
   ],
   "note": "False for repeated labels: negation proved; _partial: exact list."
  },
  {
   "property": "C55",
   "status": "proved",
   "theorems": [
    "Goslide.Props.C55_mode1"
   ],
   "note": ""
  },
  {
   "property": "C56",
   "status": "partial",
   "theorems": [
    "Goslide.Props.C56_false",
    "Goslide.Props.C56_partial"
   ],
   "note": "False with one or two tables: negation proved; _partial: three or more."
  },
  {
   "property": "C57",
   "status": "proved",
   "theorems": [
    "Goslide.Props.C57_mode2",
    "Goslide.Props.C57_too_many_labels",
    "Goslide.Props.C57_ends"
   ],
   "note": ""
  },
  {
   "property": "C58",
   "status": "partial",
   "theorems": [
    "Goslide.Props.C58_false",
    "Goslide.Props.C58_partial",
    "Goslide.Props.C58_order_partial"
   ],
   "note": "False for every sparse softmax layer: proved; _partial: what a call that returns gives, with the exact order of the nodes."
  },
  {
   "property": "C59",
   "status": "proved",
   "theorems": [
    "Goslide.Props.C59_softmax",
    "Goslide.Props.C59_exact"
   ],
   "note": ""
  },
  {
   "property": "C60",
   "status": "proved",
   "theorems": [
    "Goslide.Props.C60_order"
   ],
   "note": ""
  },
  {
   "property": "C61",
   "status": "proved",
   "theorems": [
    "Goslide.Props.C61_nodes_independent",
    "Goslide.Props.C61_histories"
   ],
   "note": ""
  },
  {
   "property": "C62",
   "status": "proved",
   "theorems": [
    "Goslide.Props.C62_initial_tables"
   ],
   "note": ""
  },
  {
   "property": "C63",
   "status": "partial",
   "theorems": [
    "Goslide.Props.C63_loadWeight_panics",
    "Goslide.Props.C63_loadWeight_false",
    "Goslide.Props.C63_new_partial"
   ],
   "note": "False with LoadWeight: proved for all arguments; _partial: New succeeds without LoadWeight, for DWTA, SRP and minhash parameters that fit (HashParams)."
  },
  {
   "property": "C64",
   "status": "proved",
   "theorems": [
    "Goslide.Props.C64_bounds",
    "Goslide.Props.C64_counts",
    "Goslide.Props.C64_predict",
    "Goslide.Props.C64_full"
   ],
   "note": ""
  },
  {
   "property": "C65",
   "status": "proved",
   "theorems": [
    "Goslide.Props.C65_predict_keeps",
    "Goslide.Props.C65_repeatable"
   ],
   "note": ""
  },
  {
   "property": "C66",
   "status": "partial",
   "theorems": [
    "Goslide.Props.C66_full",
    "Goslide.Props.C66_train_partial",
    "Goslide.Props.C66_predict",
    "Goslide.Props.C66_calls",
    "Goslide.Props.C66_small_tables_false",
    "Goslide.Props.C66_repeated_label",
    "Goslide.Props.C66_from_new"
   ],
   "note": "False when the codes do not fit the tables: negation proved; C66_full (all layers full) and _partial (LayersOk: DWTA, SRP, minhash behind a full layer; any mode but 2) otherwise, from New on and over all histories. Mode 2 is C80."
  },
  {
   "property": "C67",
   "status": "proved",
   "theorems": [
    "Goslide.Props.C67_adam_update"
   ],
   "note": "With the accumulated gradient given as the explicit sum over the batch of the back-propagated terms, and the explicit bias-corrected rate."
  },
  {
   "property": "C68",
   "status": "proved",
   "theorems": [
    "Goslide.Props.C68_rehash"
   ],
   "note": ""
  },
  {
   "property": "C69",
   "status": "partial",
   "theorems": [
    "Goslide.Props.C69_rebuild_false",
    "Goslide.Props.C69_rebuild_partial"
   ],
   "note": "False without rehash: negation proved; _partial: with rehash, and what happens without."
  },
  {
   "property": "C70",
   "status": "partial",
   "theorems": [
    "Goslide.Props.C70_train_false",
    "Goslide.Props.C70_cow_partial"
   ],
   "note": "False for training: negation proved; _partial: predictions and what is shared."
  },
  {
   "property": "C71",
   "status": "proved",
   "theorems": [
    "Goslide.Props.C71_deterministic",
    "Goslide.Props.C71_up_to_padding",
    "Goslide.Props.C71_predict"
   ],
   "note": ""
  },
  {
   "property": "C72",
   "status": "proved",
   "theorems": [
    "Goslide.Props.C72_gradient"
   ],
   "note": "Over the real numbers (exact arithmetic). The active sets are as in C94 (ActiveSets)."
  },
  {
   "property": "C73",
   "status": "partial",
   "theorems": [
    "Goslide.Props.C73_likelihood_partial",
    "Goslide.Props.C73_objective",
    "Goslide.Props.C73_unbounded",
    "Goslide.Props.C73_likelihood_false"
   ],
   "note": "False for batch sizes >= 2: negation, exact difference and unboundedness proved; _partial for batch size 1 if the labels are active nodes of the last layer (it is full, or modes 2 to 4, or mode 1 with L >= 3)."
  },
  {
   "property": "C74",
   "status": "partial",
   "theorems": [
    "Goslide.Props.C74_main_partial",
    "Goslide.Props.C74_program_partial",
    "Goslide.Props.C74_bad_start",
    "Goslide.Props.C74_requires",
    "Goslide.Props.C74_default_panics",
    "Goslide.Props.C74_lists_required"
   ],
   "note": "Any layer mode but 2 (C80), with the hash functions and parameters for which C63 and C66 are proved (DWTA, SRP, minhash), LoadWeight false."
  },
  {
   "property": "C75",
   "status": "partial",
   "theorems": [
    "Goslide.Props.C75_wta_reads_all",
    "Goslide.Props.C75_minhash_reads_30",
    "Goslide.Props.C75_train_needs_pairs",
    "Goslide.Props.C75_predict_needs_pairs",
    "Goslide.Props.C75_sparse_false",
    "Goslide.Props.C75_sparse_partial"
   ],
   "note": "False of the code for winner-takes-all and minhash hashing: necessary condition for success proved for all networks, and a witness; _partial for the other two hash functions, and for minhash with at least 30 features."
  },
  {
   "property": "C76",
   "status": "partial",
   "theorems": [
    "Goslide.Props.C76_chunks_partial",
    "Goslide.Props.C76_chunks_false",
    "Goslide.Props.C76_failing_reader"
   ],
   "note": "Independence of the pieces is false in one corner (a last line of exactly 65536 bytes whose last piece comes together with io.EOF): witness, and _partial for all other inputs and for all readers that report the end separately. The part about failing readers is proved in full."
  },
  {
   "property": "C77",
   "status": "proved",
   "theorems": [
    "Goslide.Props.C77_nearest",
    "Goslide.Props.C77_exact",
    "Goslide.Props.C77_laws",
    "Goslide.Props.C77_srp",
    "Goslide.Props.C77_srp_ratio_zero",
    "Goslide.Props.C77_minhash"
   ],
   "note": ""
  },
  {
   "property": "C78",
   "status": "proved",
   "theorems": [
    "Goslide.Props.C78_bucket",
    "Goslide.Props.C78_fifo",
    "Goslide.Props.C78_lsh",
    "Goslide.Props.C78_srp",
    "Goslide.Props.C78_dwta",
    "Goslide.Props.C78_minhash",
    "Goslide.Props.C78_wta"
   ],
   "note": ""
  },
  {
   "property": "C79",
   "status": "proved",
   "theorems": [
    "Goslide.Props.C79_log",
    "Goslide.Props.C79_counts",
    "Goslide.Props.C79_proportions"
   ],
   "note": "For all configurations accepted by the driver and all files that hold examples; the log equation also covers runs that panic."
  },
  {
   "property": "C80",
   "status": "proved",
   "theorems": [
    "Goslide.Props.C80_main",
    "Goslide.Props.C80_train",
    "Goslide.Props.C80_predict",
    "Goslide.Props.C80_calls",
    "Goslide.Props.C80_never_ends",
    "Goslide.Props.C80_from_new"
   ],
   "note": "The tables in use (they are filled in mode 2 as well) are as in C63 and C66."
  },
  {
   "property": "C81",
   "status": "proved",
   "theorems": [
    "Goslide.Props.C81_shuffle",
    "Goslide.Props.C81_position",
    "Goslide.Props.C81_wta",
    "Goslide.Props.C81_srp"
   ],
   "note": "Counted: each event is the number of outcomes of the draws in which it happens."
  },
  {
   "property": "C82",
   "status": "proved",
   "theorems": [
    "Goslide.Props.C82_balanced",
    "Goslide.Props.C82_codes"
   ],
   "note": "In exact arithmetic, for dim and ratio up to 2^53."
  },
  {
   "property": "C83",
   "status": "partial",
   "theorems": [
    "Goslide.Props.C83_reservoir_partial",
    "Goslide.Props.C83_not_uniform"
   ],
   "note": "False: the newcomer is kept with probability 1/(c+1) (C83_not_uniform); the _partial theorem is the exact count. The branch is dead code (fifo = true)."
  },
  {
   "property": "C84",
   "status": "proved",
   "theorems": [
    "Goslide.Props.C84_wta_top",
    "Goslide.Props.C84_dwta_uniform"
   ],
   "note": "For bins that do not straddle two permutations (all bins if 8 divides dim)."
  },
  {
   "property": "C85",
   "status": "proved",
   "theorems": [
    "Goslide.Props.C85_step",
    "Goslide.Props.C85_calls",
    "Goslide.Props.C85_main",
    "Goslide.Props.C85_more_than_rate"
   ],
   "note": "Over the real numbers (exact arithmetic); C85_more_than_rate shows that the learning rate itself is no bound."
  },
  {
   "property": "C86",
   "status": "proved",
   "theorems": [
    "Goslide.Props.C86_tables",
    "Goslide.Props.C86_minhash",
    "Goslide.Props.C86_dwta"
   ],
   "note": "Counted: 2 outcomes per multiplier for every odd number."
  },
  {
   "property": "C87",
   "status": "proved",
   "theorems": [
    "Goslide.Props.C87_step",
    "Goslide.Props.C87_calls",
    "Goslide.Props.C87_main",
    "Goslide.Props.C87_sgd_false"
   ],
   "note": "Over the real numbers. Adam is needed (C87_sgd_false), since without it the weights change after every example."
  },
  {
   "property": "C88",
   "status": "proved",
   "theorems": [
    "Goslide.Props.C88_sgd",
    "Goslide.Props.C88_adam",
    "Goslide.Props.C88_calls",
    "Goslide.Props.C88_unseen",
    "Goslide.Props.C88_main",
    "Goslide.Props.C88_coasts"
   ],
   "note": "C88_sgd, C88_adam and C88_calls hold with any arithmetic; that Adam leaves a weight without gradients alone is proved for the real numbers. With Adam a weight that has momentum goes on moving in batches without the feature (C88_coasts)."
  },
  {
   "property": "C89",
   "status": "proved",
   "theorems": [
    "Goslide.Props.C89_first",
    "Goslide.Props.C89_uphill",
    "Goslide.Props.C89_almost",
    "Goslide.Props.C89_later_false"
   ],
   "note": "Over the real numbers, where no active hidden node has pre-activation 0, for the active nodes of the step (as in C72). That later steps need not go uphill is shown for the update formula (C89_later_false)."
  },
  {
   "property": "C90",
   "status": "proved",
   "theorems": [
    "Goslide.Props.C90_sgd",
    "Goslide.Props.C90_adam",
    "Goslide.Props.C90_calls",
    "Goslide.Props.C90_main",
    "Goslide.Props.C90_adam_false"
   ],
   "note": "C90_sgd and C90_adam hold with any arithmetic, C90_calls and C90_main over the real numbers. C90_adam_false: with Adam an empty batch does change the weights of a trained network."
  },
  {
   "property": "C91",
   "status": "proved",
   "theorems": [
    "Goslide.Props.C91_syntax",
    "Goslide.Props.C91_unique",
    "Goslide.Props.C91_rejects",
    "Goslide.Props.C91_roundtrip"
   ],
   "note": "The parser models encoding/json as a recursive descent; the specification is a grammar of inductive relations (Spec/Json.lean), the writer for the round trip is in Spec/JsonWrite.lean. The conversion of number literals to floats is a parameter here (C92 for binary64)."
  },
  {
   "property": "C92",
   "status": "proved",
   "theorems": [
    "Goslide.Props.C92_value",
    "Goslide.Props.C92_syntax",
    "Goslide.Props.C92_roundtrip",
    "Goslide.Props.C92_data_file",
    "Goslide.Props.C92_config",
    "Goslide.Props.C92_json",
    "Goslide.Props.C92_huge_exponent"
   ],
   "note": "ParseFloat is modelled by exact rational arithmetic and one rounding; the grammar is in Spec/ParseFloat.lean. C92_huge_exponent shows that the limit on the exponent is needed: beyond it strconv ignores digits of the exponent and reads a huge number as 0."
  },
  {
   "property": "C93",
   "status": "proved",
   "theorems": [
    "Goslide.Props.C93_program",
    "Goslide.Props.C93_bad_config"
   ],
   "note": "C74 without parameters for the parsers of numbers and of JSON: these are the models of C91 and C92, and floats are binary64."
  },
  {
   "property": "C94",
   "status": "proved",
   "theorems": [
    "Goslide.Props.C94_step",
    "Goslide.Props.C94_count"
   ],
   "note": "The active sets are those the step itself draws: C94_step says that there are sets with the properties of ActiveSets such that everything outside them is as untrained; C94_count is the bound without them."
  },
  {
   "property": "C95",
   "status": "proved",
   "theorems": [
    "Goslide.Props.C95_family",
    "Goslide.Props.C95_other",
    "Goslide.Props.C95_seeds"
   ],
   "note": "The configuration number 1 to 4 selects the hash function; a seed of maphash is modelled as an arbitrary function of strings."
  },
  {
   "property": "C96",
   "status": "proved",
   "theorems": [
    "Goslide.Props.C96_stays",
    "Goslide.Props.C96_spreads",
    "Goslide.Props.C96_ruins",
    "Goslide.Props.C96_forever",
    "Goslide.Props.C96_predicts",
    "Goslide.Props.C96_ruined",
    "Goslide.Props.C96_float64"
   ],
   "note": "Arithmetic with the law class FloatNaN (every operation on a NaN gives a NaN, and a NaN is not <= anything), which binary64 satisfies if math.Exp(NaN) is NaN."
  },
  {
   "property": "C97",
   "status": "proved",
   "theorems": [
    "Goslide.Props.C97_run",
    "Goslide.Props.C97_main",
    "Goslide.Props.C97_config",
    "Goslide.Props.C97_program",
    "Goslide.Props.C97_overflow",
    "Goslide.Props.C97_negative"
   ],
   "note": "The integers of the driver only (goslide.go); for loops have the number of iterations their bound gives, so that their counters cannot wrap."
  },
  {
   "property": "C98",
   "status": "proved",
   "theorems": [
    "Goslide.Props.C98_product",
    "Goslide.Props.C98_distance",
    "Goslide.Props.C98_centred",
    "Goslide.Props.C98_rounds"
   ],
   "note": "Exact rational arithmetic; the draws of rand.Shuffle and rand.Int are uniform and independent (means are sums over all outcomes)."
  },
  {
   "property": "C99",
   "status": "proved",
   "theorems": [
    "Goslide.Props.C99_wta",
    "Goslide.Props.C99_dwta",
    "Goslide.Props.C99_similar",
    "Goslide.Props.C99_opposite"
   ],
   "note": "The draws of rand.Shuffle are uniform and independent (probabilities are counts over all outcomes). Bins that straddle two permutations are not covered."
  },
  {
   "property": "C100",
   "status": "proved",
   "theorems": [
    "Goslide.Props.C100_loaded",
    "Goslide.Props.C100_short",
    "Goslide.Props.C100_shared",
    "Goslide.Props.C100_independent",
    "Goslide.Props.C100_tables"
   ],
   "note": "The given slices have no spare capacity beyond their length (the model panics where Go would reslice into it)."
  },
  {
   "property": "C101",
   "status": "proved",
   "theorems": [
    "Goslide.Props.C101_drift",
    "Goslide.Props.C101_no_gradient",
    "Goslide.Props.C101_unbounded",
    "Goslide.Props.C101_other_layers"
   ],
   "note": "Exact rational arithmetic; about the calls that one node receives (forward, deltas, back, copy from the mirror), each with the node that the call before returned."
  },
  {
   "property": "C102",
   "status": "proved",
   "theorems": [
    "Goslide.Props.C102_step",
    "Goslide.Props.C102_full",
    "Goslide.Props.C102_asleep",
    "Goslide.Props.C102_wakes"
   ],
   "note": "Exact real arithmetic. The sets T of C102_step are those the step itself draws, as in C94; C102_full and C102_wakes need sparsity 1 in the first layer."
  },
  {
   "property": "C103",
   "status": "proved",
   "theorems": [
    "Goslide.Props.C103_new",
    "Goslide.Props.C103_draws",
    "Goslide.Props.C103_only",
    "Goslide.Props.C103_distinct"
   ],
   "note": "rand.NormFloat64 is an arbitrary stream of its own, separate from that of the integers. C103_distinct is in exact real arithmetic: in binary64 the product with 0.01 may make different draws equal."
  },
  {
   "property": "C104",
   "status": "proved",
   "theorems": [
    "Goslide.Props.C104_train",
    "Goslide.Props.C104_predict",
    "Goslide.Props.C104_order",
    "Goslide.Props.C104_merge",
    "Goslide.Props.C104_zero"
   ],
   "note": "Over the real numbers; in binary64 the sums depend on the order of the features. The number of labels counts, since the softmax delta divides by it."
  }
 ]
}
