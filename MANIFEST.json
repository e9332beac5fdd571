{
 "claims": [
  {
   "property": "C01",
   "status": "proved",
   "theorems": [
    "GS.Props.C01_check_iff",
    "GS.Props.C01_new_ok_iff",
    "GS.Props.C01_monotone",
    "GS.Props.C01_order",
    "GS.Props.C01_recorded_rejected"
   ],
   "note": ""
  },
  {
   "property": "C02",
   "status": "proved",
   "theorems": [
    "GS.Props.C02_check_iff",
    "GS.Props.C02_initial",
    "GS.Props.C02_nan",
    "GS.Props.C02_lower"
   ],
   "note": ""
  },
  {
   "property": "C03",
   "status": "proved",
   "theorems": [
    "GS.Props.C03_never_tightens",
    "GS.Props.C03_strict",
    "GS.Props.C03_tiny_factor_stuck",
    "GS.Props.C03_neg_inf_stuck"
   ],
   "note": "Strictness is proved for factors of at least f64::EPSILON; the witnesses show that tiny factors and an infinite threshold are stuck."
  },
  {
   "property": "C04",
   "status": "proved",
   "theorems": [
    "GS.Props.C04_none_iff",
    "GS.Props.C04_first_minimum",
    "GS.Props.C04_le_all",
    "GS.Props.C04_le_numbers",
    "GS.Props.C04_negative_nan"
   ],
   "note": "For all sets; the numeric reading holds unless some objective is a NaN with the sign bit set (C04_le_numbers), and then fails (C04_negative_nan)."
  },
  {
   "property": "C05",
   "status": "proved",
   "theorems": [
    "GS.Props.C05_history",
    "GS.Props.C05_run",
    "GS.Props.C05_resumed",
    "GS.Props.C05_members",
    "GS.Props.C05_members_resumed"
   ],
   "note": "Fresh and resumed runs; resumed runs assume the checkpoint held a good set."
  },
  {
   "property": "C06",
   "status": "proved",
   "theorems": [
    "GS.Props.C06_step",
    "GS.Props.C06_history",
    "GS.Props.C06_run_is_history"
   ],
   "note": ""
  },
  {
   "property": "C07",
   "status": "partial",
   "theorems": [
    "GS.Props.C07_history_partial",
    "GS.Props.C07_run_partial",
    "GS.Props.C07_lost_large_rel_tol",
    "GS.Props.C07_lost_rounding"
   ],
   "note": "Proved exactly for finite objectives and rel_tol <= 1/2 with any non-negative abs_tol; the bound is sharp: false for rel_tol = 1/2 + 2^-52 through rounding (C07_lost_rounding) and for 1.5 in any arithmetic (C07_lost_large_rel_tol)."
  },
  {
   "property": "C08",
   "status": "partial",
   "theorems": [
    "GS.Props.C08_history_partial",
    "GS.Props.C08_run_partial",
    "GS.Props.C08_nan_head_kept",
    "GS.Props.C08_inf_head_kept"
   ],
   "note": "Proved for finite objectives and all non-negative tolerances; a NaN or +inf first solution is never replaced (C08_nan_head_kept, C08_inf_head_kept)."
  },
  {
   "property": "C09",
   "status": "proved",
   "theorems": [
    "GS.Props.C09_history",
    "GS.Props.C09_run",
    "GS.Props.C09_rejects_near"
   ],
   "note": ""
  },
  {
   "property": "C10",
   "status": "partial",
   "theorems": [
    "GS.Props.C10_in_bounds_partial",
    "GS.Props.C10_not_outside",
    "GS.Props.C10_nan_returned"
   ],
   "note": "Proved for solutions without NaN coordinates; a NaN coordinate passes the bounds check (C10_nan_returned)."
  },
  {
   "property": "C11",
   "status": "partial",
   "theorems": [
    "GS.Props.C11_accepts_iff_partial",
    "GS.Props.C11_accepts_numbers_partial",
    "GS.Props.C11_first_error",
    "GS.Props.C11_initial_state",
    "GS.Props.C11_three_rejected",
    "GS.Props.C11_nan_accepted"
   ],
   "note": "Exact acceptance condition proved; `accepted iff in the documented domain` holds for numbers (no NaN), a NaN factor is accepted (C11_nan_accepted) and population size 3 is rejected (C11_three_rejected)."
  },
  {
   "property": "C12",
   "status": "partial",
   "theorems": [
    "GS.Props.C12_accepts_iff_partial",
    "GS.Props.C12_registers",
    "GS.Props.C12_first_error",
    "GS.Props.C12_nan_accepted"
   ],
   "note": "Exact acceptance condition proved; NaN coordinates are accepted (C12_nan_accepted)."
  },
  {
   "property": "C13",
   "status": "partial",
   "theorems": [
    "GS.Props.C13_accepts_iff_partial",
    "GS.Props.C13_accepts_numbers_partial",
    "GS.Props.C13_first_error",
    "GS.Props.C13_run_rejects",
    "GS.Props.C13_nan_bounds_accepted"
   ],
   "note": "Exact acceptance condition proved; NaN bounds are accepted (C13_nan_bounds_accepted)."
  },
  {
   "property": "C14",
   "status": "partial",
   "theorems": [
    "GS.Props.C14_combine",
    "GS.Props.C14_trial_points_partial",
    "GS.Props.C14_reference_set_partial",
    "GS.Props.C14_midpoint_overflow"
   ],
   "note": "Proved for finite ordered bounds whose width and sum do not overflow; the midpoint of bounds with overflowing sum is outside (C14_midpoint_overflow)."
  },
  {
   "property": "C15",
   "status": "proved",
   "theorems": [
    "GS.Props.C15_feasible",
    "GS.Props.C15_best_feasible"
   ],
   "note": ""
  },
  {
   "property": "C16",
   "status": "proved",
   "theorems": [
    "GS.Props.C16_objectives"
   ],
   "note": ""
  },
  {
   "property": "C17",
   "status": "proved",
   "theorems": [
    "GS.Props.C17_size"
   ],
   "note": ""
  },
  {
   "property": "C18",
   "status": "proved",
   "theorems": [
    "GS.Props.C18_best"
   ],
   "note": ""
  },
  {
   "property": "C19",
   "status": "proved",
   "theorems": [
    "GS.Props.C19_keeps_best",
    "GS.Props.C19_worst",
    "GS.Props.C19_best"
   ],
   "note": ""
  },
  {
   "property": "C20",
   "status": "proved",
   "theorems": [
    "GS.Props.C20_custom"
   ],
   "note": ""
  },
  {
   "property": "C21",
   "status": "partial",
   "theorems": [
    "GS.Props.C21_greedy_partial",
    "GS.Props.C21_greedy_parallel",
    "GS.Props.C21_each_once",
    "GS.Props.C21_size",
    "GS.Props.C21_no_candidates",
    "GS.Props.C21_sequential_not_greedy"
   ],
   "note": "Proved for the parallel mode and for the sequential mode when no distance is below the 1e-14 cut-off (C21_sequential_not_greedy)."
  },
  {
   "property": "C22",
   "status": "proved",
   "theorems": [
    "GS.Props.C22_sampling",
    "GS.Props.C22_run_error",
    "GS.Props.C22_run_reports"
   ],
   "note": ""
  },
  {
   "property": "C23",
   "status": "proved",
   "theorems": [
    "GS.Props.C23_count",
    "GS.Props.C23_pairs",
    "GS.Props.C23_total",
    "GS.Props.C23_mode"
   ],
   "note": "The count and the pairs are stated for reference sets of fewer than 2^52 points: beyond that (not reachable in memory) the floating-point square root can exceed the integer one (F64.toUsize_sqrt_ofNat_large)."
  },
  {
   "property": "C24",
   "status": "partial",
   "theorems": [
    "GS.Props.C24_schedule_partial",
    "GS.Props.C24_small_sets",
    "GS.Props.C24_sum_order_matters",
    "GS.Props.C24_error_depends_on_order"
   ],
   "note": "Everything except the floating-point sum of sampled distances is schedule-independent, up to which of several failing evaluations is reported; full independence for reference sets of at most eight points; C24_sum_order_matters and C24_error_depends_on_order are the counterexamples."
  },
  {
   "property": "C25",
   "status": "partial",
   "theorems": [
    "GS.Props.C25_modes_partial",
    "GS.Props.C25_small_sets_partial",
    "GS.Props.C25_modes_differ"
   ],
   "note": "Proved when no non-zero distance is below 1e-14 and the sums agree (automatic up to eight points); C25_modes_differ is the counterexample."
  },
  {
   "property": "C26",
   "status": "proved",
   "theorems": [
    "GS.Props.C26_examined_in_order",
    "GS.Props.C26_examines_all",
    "GS.Props.C26_count",
    "GS.Props.C26_searches_examined"
   ],
   "note": "Sequential fresh runs: examined points are the planned prefix in index order, all of them unless the time limit or target intervenes. C95 covers the other modes."
  },
  {
   "property": "C27",
   "status": "proved",
   "theorems": [
    "GS.Props.C27_search_iff",
    "GS.Props.C27_solutions_recorded",
    "GS.Props.C27_resumed"
   ],
   "note": "Search iff merit and distance tests pass against the found solutions, for fresh and resumed sequential runs. C96 covers the other modes."
  },
  {
   "property": "C28",
   "status": "partial",
   "theorems": [
    "GS.Props.C28_every_mode_partial",
    "GS.Props.C28_merit_value_partial",
    "GS.Props.C28_violated"
   ],
   "note": "Resumed runs evaluate the examined point itself; fresh runs use the value cached at the same position of the unshuffled set. C28_violated shows that value can belong to another point."
  },
  {
   "property": "C29",
   "status": "partial",
   "theorems": [
    "GS.Props.C29_threshold_partial",
    "GS.Props.C29_search_lowers_partial",
    "GS.Props.C29_violated"
   ],
   "note": "Threshold changes only by searches and relaxations, at the documented times; C29_violated shows a search may raise the threshold, C29_search_lowers_partial gives the condition under which it does not."
  },
  {
   "property": "C30",
   "status": "proved",
   "theorems": [
    "GS.Props.C30_target_stops",
    "GS.Props.C30_no_target_examines_all"
   ],
   "note": "C98 covers the other modes."
  },
  {
   "property": "C31",
   "status": "partial",
   "theorems": [
    "GS.Props.C31_nonempty",
    "GS.Props.C31_saved_nonempty",
    "GS.Props.C31_no_feasible",
    "GS.Props.C31_no_feasible_resumed",
    "GS.Props.C31_errors_partial",
    "GS.Props.C31_errors_resumed",
    "GS.Props.C31_stage1_failure",
    "GS.Props.C31_trial_failure_ignored"
   ],
   "note": "Errors are attributed to failures of the objective, constraints or local solver at points inside the bounds; C31_trial_failure_ignored shows the converse fails: an objective failure at a stage-1 trial point is dropped and the run succeeds."
  },
  {
   "property": "C32",
   "status": "proved",
   "theorems": [
    "GS.Props.C32_fresh",
    "GS.Props.C32_resumed",
    "GS.Props.C32_total"
   ],
   "note": ""
  },
  {
   "property": "C33",
   "status": "proved",
   "theorems": [
    "GS.Props.C33_batch_size_ignored",
    "GS.Props.C33_chunking",
    "GS.Props.C33_chunk_size"
   ],
   "note": ""
  },
  {
   "property": "C34",
   "status": "proved",
   "theorems": [
    "GS.Props.C34_schedule_irrelevant",
    "GS.Props.C34_state_schedule_irrelevant",
    "GS.Props.C34_error_depends_on_order"
   ],
   "note": "Result, final state and trace do not depend on completion order when no search of the batch fails; when searches fail, both runs fail with equal state, but which of several different failures is reported depends on the order (C34_error_depends_on_order)."
  },
  {
   "property": "C35",
   "status": "partial",
   "theorems": [
    "GS.Props.C35_earlier_batches_partial",
    "GS.Props.C35_resumed_partial",
    "GS.Props.C35_violated"
   ],
   "note": "Proved for the solution of stage 1 and for solutions of earlier batches, for every batch size; C35_violated shows a search started near a solution found by an earlier iteration of the same batch."
  },
  {
   "property": "C36",
   "status": "partial",
   "theorems": [
    "GS.Props.C36_fixed_batch_partial",
    "GS.Props.C36_violated"
   ],
   "note": "Thread count is irrelevant when the batch size is set, parallelism is off or fewer than four iterations remain; C36_violated shows the default configuration depends on it."
  },
  {
   "property": "C37",
   "status": "proved",
   "theorems": [
    "GS.Props.C37_noninterference",
    "GS.Props.C37_zero_frequency_panics"
   ],
   "note": "Needs a positive callback frequency; C37_zero_frequency_panics shows why."
  },
  {
   "property": "C38",
   "status": "partial",
   "theorems": [
    "GS.Props.C38_seed_partial",
    "GS.Props.C38_fresh_partial",
    "GS.Props.C38_violated",
    "GS.Props.C38_without_feature"
   ],
   "note": "Holds without restriction in builds without the checkpointing feature; with it, when seed + iterations fits in 64 bits; C38_violated shows the overflow."
  },
  {
   "property": "C39",
   "status": "proved",
   "theorems": [
    "GS.Props.C39_round_trip",
    "GS.Props.C39_load",
    "GS.Props.C39_optimizer",
    "GS.Props.C39_canonical"
   ],
   "note": "bincode legacy format with the derived serde layout; also the converse: whatever loads is an encoding"
  },
  {
   "property": "C40",
   "status": "proved",
   "theorems": [
    "GS.Props.C40_truncated",
    "GS.Props.C40_prefix"
   ],
   "note": ""
  },
  {
   "property": "C41",
   "status": "proved",
   "theorems": [
    "GS.Props.C41_distinct_files",
    "GS.Props.C41_iteration_recovered",
    "GS.Props.C41_accepted",
    "GS.Props.C41_never_panics"
   ],
   "note": ""
  },
  {
   "property": "C42",
   "status": "partial",
   "theorems": [
    "GS.Props.C42_keep_all_partial",
    "GS.Props.C42_iteration_zero_violated",
    "GS.Props.C42_keep_all_none",
    "GS.Props.C42_single",
    "GS.Props.C42_single_none"
   ],
   "note": "keep_all: a checkpoint of iteration 0 is never found (C42_iteration_zero_violated); otherwise proved for all histories and listing orders"
  },
  {
   "property": "C43",
   "status": "proved",
   "theorems": [
    "GS.Props.C43_cleanup",
    "GS.Props.C43_noop"
   ],
   "note": ""
  },
  {
   "property": "C44",
   "status": "partial",
   "theorems": [
    "GS.Props.C44_other_files_partial",
    "GS.Props.C44_keep_all_files_partial",
    "GS.Props.C44_single_violated",
    "GS.Props.C44_keep_all_violated"
   ],
   "note": "false in both modes for every crash point inside a write (C44_*_violated); other files stay loadable and the interrupted file never gives a wrong checkpoint"
  },
  {
   "property": "C45",
   "status": "partial",
   "theorems": [
    "GS.Props.C45_no_interference_partial",
    "GS.Props.C45_violated"
   ],
   "note": "false when one name is the other followed by _<number> and modes differ (C45_violated); proved otherwise for all operation sequences"
  },
  {
   "property": "C46",
   "status": "proved",
   "theorems": [
    "GS.Props.C46_restore",
    "GS.Props.C46_same_optimizer",
    "GS.Props.C46_through_file",
    "GS.Props.C46_not_carried"
   ],
   "note": "For every pair of optimizers; also composed with the file format, and as equality of the whole optimizer when both are set up alike. The filter factor, the sequential local solver and the time limit are not part of a checkpoint (C46_not_carried)."
  },
  {
   "property": "C47",
   "status": "partial",
   "theorems": [
    "GS.Props.C47_in_order_partial",
    "GS.Props.C47_every_mode_partial",
    "GS.Props.C47_remaining_partial",
    "GS.Props.C47_violated"
   ],
   "note": "False as stated (C47_violated): the reference set is stored unshuffled. Proved: the resumed run examines exactly the remaining positions of the stored set, each once."
  },
  {
   "property": "C48",
   "status": "proved",
   "theorems": [
    "GS.Props.C48_first_solution",
    "GS.Props.C48_filter"
   ],
   "note": "For every checkpoint, every continuation (any schedule, failing or not), with a non-negative absolute tolerance."
  },
  {
   "property": "C49",
   "status": "proved",
   "theorems": [
    "GS.Props.C49_schedule",
    "GS.Props.C49_schedule_resumed",
    "GS.Props.C49_failing",
    "GS.Props.C49_contents",
    "GS.Props.C49_threshold",
    "GS.Props.C49_threshold_resumed",
    "GS.Props.C49_final",
    "GS.Props.C49_parallel",
    "GS.Props.C49_parallel_failing",
    "GS.Props.C49_final_every_mode",
    "GS.Props.C49_parallel_last_number"
   ],
   "note": "Sequential runs by C49_schedule, parallel ones by C49_parallel, the end by C49_final_every_mode. Callbacks are assumed not to replace the observer's callback or frequency (no public method does). The threshold of a resumed run is proved when the target is not already reached at the start."
  },
  {
   "property": "C50",
   "status": "partial",
   "theorems": [
    "GS.Props.C50_state_partial",
    "GS.Props.C50_auto_resume_violated",
    "GS.Props.C50_no_auto_resume_violated",
    "GS.Props.C50_filter_and_solver_violated"
   ],
   "note": "The state after the call is proved; the full property is false: with auto_resume the modification has no effect at all, without it stage 1 runs again, and filter factor and solver are never updated."
  },
  {
   "property": "C51",
   "status": "partial",
   "theorems": [
    "GS.Props.C51_expand_partial",
    "GS.Props.C51_not_larger",
    "GS.Props.C51_size_violated"
   ],
   "note": "Exact size needs a saved set not larger than the new population; a run with custom points violates it (C51_size_violated)."
  },
  {
   "property": "C52",
   "status": "partial",
   "theorems": [
    "GS.Props.C52_same_features_partial",
    "GS.Props.C52_argmin_violated",
    "GS.Props.C52_rayon_added_violated",
    "GS.Props.C52_rayon_dropped_violated"
   ],
   "note": "holds between builds with the same argmin and rayon features; false otherwise, for every checkpoint (C52_*_violated)"
  },
  {
   "property": "C53",
   "status": "proved",
   "theorems": [
    "GS.Props.C53_visible",
    "GS.Props.C53_settings"
   ],
   "note": "Visibility of observer numbers depends only on mode, construction and marks, for every history of observer calls."
  },
  {
   "property": "C54",
   "status": "proved",
   "theorems": [
    "GS.Props.C54_best_stage1",
    "GS.Props.C54_best_stage2",
    "GS.Props.C54_point_reported",
    "GS.Props.C54_calls",
    "GS.Props.C54_improved_le",
    "GS.Props.C54_monotone",
    "GS.Props.C54_totals_stage1",
    "GS.Props.C54_totals_stage2"
   ],
   "note": "For every history of reports the best objective is the minimum reported and the best point that of its first report; counters only grow and improved calls never exceed local calls."
  },
  {
   "property": "C55",
   "status": "partial",
   "theorems": [
    "GS.Props.C55_processed",
    "GS.Props.C55_processed_resumed",
    "GS.Props.C55_sequential",
    "GS.Props.C55_improved_violated",
    "GS.Props.C55_improved_partial",
    "GS.Props.C55_every_mode",
    "GS.Props.C55_every_mode_resumed",
    "GS.Props.C55_lost_at_target"
   ],
   "note": "Local calls and evaluations are exact in every mode unless a parallel batch reaches the target, and then never too large (C55_every_mode, C55_lost_at_target); improved local calls omit solutions that replace the set as new best (C55_improved_violated)."
  },
  {
   "property": "C56",
   "status": "partial",
   "theorems": [
    "GS.Props.C56_initial_partial",
    "GS.Props.C56_violated"
   ],
   "note": "Shown stage-1 evaluations are those of the initial set and the local search; trial point evaluations are missing (C56_violated)."
  },
  {
   "property": "C57",
   "status": "partial",
   "theorems": [
    "GS.Props.C57_callbacks",
    "GS.Props.C57_any_outcome",
    "GS.Props.C57_none",
    "GS.Props.C57_frequency_zero",
    "GS.Props.C57_parallel",
    "GS.Props.C57_parallel_any_outcome",
    "GS.Props.C57_parallel_violated"
   ],
   "note": "Exact for sequential runs. Parallel runs are characterised exactly (C57_parallel), but a batch with a single local search ignores the frequency (C57_parallel_violated). For frequency 0 the run panics (C57_frequency_zero)."
  },
  {
   "property": "C58",
   "status": "partial",
   "theorems": [
    "GS.Props.C58_changes_partial",
    "GS.Props.C58_all",
    "GS.Props.C58_iteration_violated",
    "GS.Props.C58_point_violated",
    "GS.Props.C58_nan_violated",
    "GS.Props.C58_hidden_violated"
   ],
   "note": "A line is printed whenever the compared numbers changed; iteration and point changes are not compared (C58_*_violated)."
  },
  {
   "property": "C59",
   "status": "partial",
   "theorems": [
    "GS.Props.C59_mode_partial",
    "GS.Props.C59_violated"
   ],
   "note": "The mode restricts all updates except the last added point (C59_violated)."
  },
  {
   "property": "C60",
   "status": "partial",
   "theorems": [
    "GS.Props.C60_total_partial",
    "GS.Props.C60_violated",
    "GS.Props.C60_substage",
    "GS.Props.C60_elapsed"
   ],
   "note": "Stage times are fixed after the end of the stage; the total time keeps growing (C60_violated)."
  },
  {
   "property": "C61",
   "status": "proved",
   "theorems": [
    "GS.Props.C61_mismatch",
    "GS.Props.C61_dispatch",
    "GS.Props.C61_dispatch_cobyla"
   ],
   "note": "Dispatch of solve_with_tracking: mismatched configurations give the requested solver's error without evaluations; matching ones run exactly the requested algorithm, for every solver library."
  },
  {
   "property": "C62",
   "status": "partial",
   "theorems": [
    "GS.Props.C62_no_setting_ignored_partial",
    "GS.Props.C62_violated",
    "GS.Props.C62_bounds_violated"
   ],
   "note": "Violated: Newton-CG with Hager-Zhang ignores curvature_threshold and tolerance (C62_violated); a third line-search bound is ignored (C62_bounds_violated). Proved for all other configurations: indistinguishable configurations are equal."
  },
  {
   "property": "C63",
   "status": "proved",
   "theorems": [
    "GS.Props.C63_tracking_neutral",
    "GS.Props.C63_count"
   ],
   "note": "For every solver library (any sequence of evaluations): tracking changes neither result nor evaluations, and the count is exact."
  },
  {
   "property": "C64",
   "status": "proved",
   "theorems": [
    "GS.Props.C64_cobyla_error_is_infinity",
    "GS.Props.C64_cobyla_survives",
    "GS.Props.C64_argmin_fails",
    "GS.Props.C64_bounds_mismatch"
   ],
   "note": "COBYLA's search equals the one with errors replaced by +infinity and never aborts by itself; argmin solvers end with RunFailed at the failing evaluation; bounds mismatch is reported before any evaluation."
  },
  {
   "property": "C65",
   "status": "partial",
   "theorems": [
    "GS.Props.C65_simplex_reaches_solver",
    "GS.Props.C65_vertices",
    "GS.Props.C65_distinct_iff",
    "GS.Props.C65_distinct_partial",
    "GS.Props.C65_violated"
   ],
   "note": "Vertices proved for all inputs; exact condition for distinctness proved; distinctness violated by absorbed steps (C65_violated), proved when simplex_delta is at least 2^-52 of each coordinate."
  },
  {
   "property": "C66",
   "status": "partial",
   "theorems": [
    "GS.Props.C66_lbfgs",
    "GS.Props.C66_neldermead",
    "GS.Props.C66_steepestdescent",
    "GS.Props.C66_trustregion",
    "GS.Props.C66_newtoncg",
    "GS.Props.C66_morethuente",
    "GS.Props.C66_hagerzhang",
    "GS.Props.C66_cobyla",
    "GS.Props.C66_defaults_partial",
    "GS.Props.C66_hagerzhang_default_violated"
   ],
   "note": "For every one of the eight builders and every sequence of setter calls, the built configuration has, in every field, the value of the last call of its setter, and otherwise the default. The defaults are those documented, except the HagerZhang bounds: C66_hagerzhang_default_violated proves that the documented [sqrt(eps), inf] are not what the builder uses."
  },
  {
   "property": "C67",
   "status": "proved",
   "theorems": [
    "GS.Props.C67_names",
    "GS.Props.C67_names_without_argmin",
    "GS.Props.C67_unambiguous"
   ],
   "note": "For every string the parser returns exactly the solver whose name it equals up to letter case, and rejects all others, with and without the argmin feature; no string has two readings. Unicode lower-casing is a parameter restricted by the facts in UnicodeLower."
  },
  {
   "property": "C68",
   "status": "partial",
   "theorems": [
    "GS.Props.C68_line_of_pair",
    "GS.Props.C68_line_count",
    "GS.Props.C68_line_consistent_partial",
    "GS.Props.C68_violated",
    "GS.Props.C68_without_constraints",
    "GS.Props.C68_problem",
    "GS.Props.C68_header",
    "GS.Props.C68_solution",
    "GS.Props.C68_solution_plain"
   ],
   "note": "Position, number and form of all constraint lines proved for every solution set, problem and description list. Mark and remark agree for all values that are not NaN; C68_violated proves that the NaN line shows a cross and says satisfied."
  },
  {
   "property": "C69",
   "status": "partial",
   "theorems": [
    "GS.Props.C69_ids",
    "GS.Props.C69_same_thread_partial",
    "GS.Props.C69_functions",
    "GS.Props.C69_other_thread_violated",
    "GS.Props.C69_worker_violated",
    "GS.Props.C69_other_problem_violated"
   ],
   "note": "Proved for every history and interleaving on threads whose last constraints() call was for the problem; numbers of problems are distinct. Violated on other threads (C69_other_thread_violated, C69_worker_violated) and after another problem's constraints() call (C69_other_problem_violated)."
  },
  {
   "property": "C70",
   "status": "partial",
   "theorems": [
    "GS.Props.C70_rectangular",
    "GS.Props.C70_acceptance_partial",
    "GS.Props.C70_violated"
   ],
   "note": "Rectangular lists are accepted unchanged and the accepted shapes are characterised for all lists; ragged lists whose total length fits are accepted (C70_violated)."
  },
  {
   "property": "C71",
   "status": "proved",
   "theorems": [
    "GS.Props.C71_iteration",
    "GS.Props.C71_indexing",
    "GS.Props.C71_agrees_with_rust"
   ],
   "note": "Iteration, indexing and best_solution for all solution sets; agreement with the Rust solution set."
  },
  {
   "property": "C72",
   "status": "proved",
   "theorems": [
    "GS.Props.C72_config",
    "GS.Props.C72_default",
    "GS.Props.C72_params",
    "GS.Props.C72_settings"
   ],
   "note": "All solver names and configuration objects; parameters and all settings are passed on unchanged."
  },
  {
   "property": "C73",
   "status": "partial",
   "theorems": [
    "GS.Props.C73_config_error_names_solver_partial",
    "GS.Props.C73_violated"
   ],
   "note": "Proved for all solvers except Newton-CG, for which it is violated (C73_violated)."
  },
  {
   "property": "C74",
   "status": "partial",
   "theorems": [
    "GS.Props.C74_defaults_partial",
    "GS.Props.C74_hagerzhang_violated",
    "GS.Props.C74_cobyla_violated"
   ],
   "note": "Proved for all classes except HagerZhang and COBYLA, for which it is violated (C74_hagerzhang_violated, C74_cobyla_violated)."
  },
  {
   "property": "C75",
   "status": "partial",
   "theorems": [
    "GS.Props.C75_zero_tolerance_partial",
    "GS.Props.C75_violated"
   ],
   "note": "Proved for zero tolerances and finite objectives; violated with the default tolerances (C75_violated)."
  },
  {
   "property": "C76",
   "status": "partial",
   "theorems": [
    "GS.Props.C76_no_deadlock_partial",
    "GS.Props.C76_violated"
   ],
   "note": "Proved for any number of threads, tasks and schedules when Python functions do not call optimize; an objective that calls optimize deadlocks for ever (C76_violated)."
  },
  {
   "property": "C77",
   "status": "partial",
   "theorems": [
    "GS.Props.C77_available_partial",
    "GS.Props.C77_unconstrained",
    "GS.Props.C77_violated"
   ],
   "note": "Proved for histories without failing constraints and for problems without constraints; after one failure every later constraints() panics for ever (C77_violated)."
  },
  {
   "property": "C78",
   "status": "partial",
   "theorems": [
    "GS.Props.C78_callback_partial",
    "GS.Props.C78_violated"
   ],
   "note": "The callback used is characterised for all call sequences; a built-in callback chosen after a Python one is ignored (C78_violated)."
  },
  {
   "property": "C79",
   "status": "partial",
   "theorems": [
    "GS.Props.C79_failure",
    "GS.Props.C79_fresh_partial",
    "GS.Props.C79_reuse_violated"
   ],
   "note": "Failure leaves the observer unchanged for all inputs; a fresh observer shows exactly the work of the optimization in every mode (at most that when the target was reached in parallel mode); a reused one shows the sum (C79_reuse_violated)."
  },
  {
   "property": "C80",
   "status": "proved",
   "theorems": [
    "GS.Props.C80_argmin",
    "GS.Props.C80_cobyla",
    "GS.Props.C80_reported"
   ],
   "note": "the conversation relation leaves the solver library free; COBYLA is assumed to ask only for constraints that exist"
  },
  {
   "property": "C81",
   "status": "proved",
   "theorems": [
    "GS.Props.C81_mismatch",
    "GS.Props.C81_never_succeeds"
   ],
   "note": "for fresh runs of a newly built optimizer in every environment whose local solver is the modelled runner"
  },
  {
   "property": "C82",
   "status": "proved",
   "theorems": [
    "GS.Props.C82_cobyla",
    "GS.Props.C82_cobyla_resumed"
   ],
   "note": "for runs whose environment completes every scheduled task; the library must return (no endless interaction) and keep the dimension of points"
  },
  {
   "property": "C83",
   "status": "proved",
   "theorems": [
    "GS.Props.C83_values",
    "GS.Props.C83_values_resumed",
    "GS.Props.C83_failed_point_returned"
   ],
   "note": "under the hypothesis that the solver library reports the value it obtained; the +inf case is witnessed by C83_failed_point_returned"
  },
  {
   "property": "C84",
   "status": "proved",
   "theorems": [
    "GS.Props.C84_evaluations",
    "GS.Props.C84_every_mode"
   ],
   "note": "for successful fresh runs of every mode; equality when the target is not reached, at most otherwise (C84_every_mode); without a stage 2 observer there is nothing to show"
  },
  {
   "property": "C85",
   "status": "proved",
   "theorems": [
    "GS.Props.C85_current",
    "GS.Props.C85_current_resumed"
   ],
   "note": "Runs that succeed, any mode; callbacks that leave the observer alone (Tame).  The set at a moment is computed from the recorded history."
  },
  {
   "property": "C86",
   "status": "partial",
   "theorems": [
    "GS.Props.C86_in_force_partial",
    "GS.Props.C86_in_force_resumed_partial",
    "GS.Props.C86_violated"
   ],
   "note": "Proved for batches of more than one point; one point at a time the values from before the iteration are shown (C86_violated)."
  },
  {
   "property": "C87",
   "status": "partial",
   "theorems": [
    "GS.Props.C87_history_partial",
    "GS.Props.C87_run_partial",
    "GS.Props.C87_complete_partial",
    "GS.Props.C87_violated"
   ],
   "note": "C87_history_partial/C87_run_partial give the exact contents of the set: the first member and, of the solutions processed after it, exactly those admissible, within tolerance and apart from what was kept. Solutions found before the first member are lost even when within tolerance of it: C87_violated."
  },
  {
   "property": "C88",
   "status": "proved",
   "theorems": [
    "GS.Props.C88_unreached",
    "GS.Props.C88_nan_ignored",
    "GS.Props.C88_stops",
    "GS.Props.C88_cuts",
    "GS.Props.C88_exact",
    "GS.Props.C88_exact_sequential",
    "GS.Props.C88_whole_batches"
   ],
   "note": "the limit is looked at between batches only (C88_whole_batches); the exact cut is proved in every mode (C88_exact)"
  },
  {
   "property": "C89",
   "status": "partial",
   "theorems": [
    "GS.Props.C89_same_partial",
    "GS.Props.C89_violated_seed"
   ],
   "note": "Proved: equal results, events and final states of the first run where the seed leaves room for the iterations (or without overflow checks); overflow checks make no difference at all without the feature. Missing: large seeds in debug builds (counterexample C89_violated_seed) and later runs (counterexample C91_violated)."
  },
  {
   "property": "C90",
   "status": "proved",
   "theorems": [
    "GS.Props.C90_all_runs",
    "GS.Props.C90_first_member",
    "GS.Props.C90_members"
   ],
   "note": "The set is what processing the local solutions of all runs in order gives, by the rules of a single run; the first member never gets worse; members come from local searches."
  },
  {
   "property": "C91",
   "status": "partial",
   "theorems": [
    "GS.Props.C91_same_points_partial",
    "GS.Props.C91_violated"
   ],
   "note": "Proved for builds without the checkpointing feature, in every mode and batch size, for any sequences of earlier runs. Counterexample with the feature: the second run shuffles with another seed (C91_violated)."
  },
  {
   "property": "C92",
   "status": "partial",
   "theorems": [
    "GS.Props.C92_sequential",
    "GS.Props.C92_fresh_partial",
    "GS.Props.C92_resumed_partial",
    "GS.Props.C92_violated"
   ],
   "note": "Proved for sequential runs, fresh and resumed. In parallel runs the searched iteration is less than one batch before the checkpoint's; the full claim is false there (counterexample C92_violated, with the loss of a solution after crash and resume)."
  },
  {
   "property": "C93",
   "status": "partial",
   "theorems": [
    "GS.Props.C93_single",
    "GS.Props.C93_keep_all_partial",
    "GS.Props.C93_violated"
   ],
   "note": "Proved for any number of lifetimes: without keep_all in every mode, with keep_all for sequential configurations and checkpoints of iteration above 0. With keep_all the claim is false for iteration 0 (C42_iteration_zero_violated) and in parallel runs (C93_violated: the checkpoint found is not the last one and lacks the returned solution)."
  },
  {
   "property": "C94",
   "status": "partial",
   "theorems": [
    "GS.Props.C94_set",
    "GS.Props.C94_first",
    "GS.Props.C94_violated"
   ],
   "note": "Proved without keep_all in every mode, with keep_all for sequential configurations. In parallel runs with keep_all it is false (C94_violated)."
  },
  {
   "property": "C95",
   "status": "proved",
   "theorems": [
    "GS.Props.C95_examined_in_order",
    "GS.Props.C95_examines",
    "GS.Props.C95_examines_all"
   ],
   "note": "All modes and batch sizes; the sequential mode is the case of batches of one iteration."
  },
  {
   "property": "C96",
   "status": "proved",
   "theorems": [
    "GS.Props.C96_decided_by_earlier_batches",
    "GS.Props.C96_resumed",
    "GS.Props.C96_complete",
    "GS.Props.C96_searches_examined",
    "GS.Props.C96_complete_resumed"
   ],
   "note": "Fresh runs, and resumed runs whose checkpoint does not reach the target yet and whose stored solution set is not the empty list."
  },
  {
   "property": "C97",
   "status": "proved",
   "theorems": [
    "GS.Props.C97_threshold",
    "GS.Props.C97_resumed",
    "GS.Props.C97_record_can_raise"
   ],
   "note": "Fresh runs, and resumed runs under the same hypotheses as C96. C97_record_can_raise shows that inside a batch recording a solution can raise the threshold."
  },
  {
   "property": "C98",
   "status": "proved",
   "theorems": [
    "GS.Props.C98_target_stops",
    "GS.Props.C98_resumed",
    "GS.Props.C98_no_target_examines_all"
   ],
   "note": "Fresh runs, and resumed runs under the same hypotheses as C96. The panic of a zero callback frequency can occur after the target is reached because parallel batches call back before they test the target."
  },
  {
   "property": "C99",
   "status": "proved",
   "theorems": [
    "GS.Props.C99_run",
    "GS.Props.C99_ignored",
    "GS.Props.C99_by_hand",
    "GS.Props.C99_lives"
   ],
   "note": "For every optimizer, unreadable checkpoint and number of later starts."
  },
  {
   "property": "C100",
   "status": "partial",
   "theorems": [
    "GS.Props.C100_single_violated",
    "GS.Props.C100_keep_all_violated",
    "GS.Props.C100_repaired_partial",
    "GS.Props.C100_afresh_partial"
   ],
   "note": "false for every kill point inside a write of the single file, and inside the write of a numbered file above 0 of a sequential program: the program then fails at every later start (C100_single_violated, C100_keep_all_violated); proved: after removing the interrupted file it resumes from the last other checkpoint (keep_all) or starts afresh; kill points between events: C93"
  },
  {
   "property": "C101",
   "status": "proved",
   "theorems": [
    "GS.Props.C101_fresh",
    "GS.Props.C101_resumed",
    "GS.Props.C101_seed",
    "GS.Props.C101_seed_resumed",
    "GS.Props.C101_lives"
   ],
   "note": "In terms of runs of every mode (C101_fresh, C101_resumed, C101_seed, C101_seed_resumed) and of directories over any number of interruptions and restarts (C101_lives). The seed part needs a build with the checkpointing feature, in which alone checkpoints are written."
  },
  {
   "property": "C102",
   "status": "partial",
   "theorems": [
    "GS.Props.C102_one_batch_partial",
    "GS.Props.C102_first_partial",
    "GS.Props.C102_examines_again",
    "GS.Props.C102_violated"
   ],
   "note": "False (C102_violated): the final checkpoint holds the number of the last iteration, not the next one, and the reference set before the shuffle, so the second run examines at least one point again (C102_examines_again), may search from it and return more solutions. Proved: at most one batch is examined again, with at most one search for each point and no first search, and the result is the returned set with these solutions added (C102_one_batch_partial); the first solution is kept or improved (C102_first_partial). Missing: the claim itself, since the code does not have the property."
  },
  {
   "property": "C103",
   "status": "partial",
   "theorems": [
    "GS.Props.C103_accepted",
    "GS.Props.C103_rejected_partial",
    "GS.Props.C103_duplicate_partial",
    "GS.Props.C103_not_duplicate_partial",
    "GS.Props.C103_returned_partial",
    "GS.Props.C103_searched",
    "GS.Props.C103_searched_resumed",
    "GS.Props.C103_rejected_violated",
    "GS.Props.C103_duplicate_violated"
   ],
   "note": "Accepted points and starting points of searches: proved for all finite points and all factors (C103_accepted, C103_searched, C103_searched_resumed). Rejected points, the duplicate test and returned sets: proved when the square of the factor does not overflow (C103_rejected_partial, C103_duplicate_partial, C103_not_duplicate_partial, C103_returned_partial); for factors above 2^512 it is false, since both squares become infinite (C103_rejected_violated, C103_duplicate_violated). The specification computes in rationals and does not use the model's distance."
  },
  {
   "property": "C104",
   "status": "partial",
   "theorems": [
    "GS.Props.C104_returned",
    "GS.Props.C104_returned_resumed",
    "GS.Props.C104_sizes",
    "GS.Props.C104_sizes_resumed",
    "GS.Props.C104_adjusting_partial",
    "GS.Props.C104_adjusting_violated"
   ],
   "note": "Set and sizes: proved for fresh and resumed runs in every mode. Threshold lines: one per relaxation with its iteration and the threshold before (C104_adjusting_partial); the number printed as the new threshold is t + 0.1|t|, not t + threshold_factor (1 + |t|) (C104_adjusting_violated). Lines are modelled as the values handed to println!, read off the events of the run; stage, target, time limit and x0 lines are not modelled."
  },
  {
   "property": "C105",
   "status": "proved",
   "theorems": [
    "GS.Props.C105_returned",
    "GS.Props.C105_returned_resumed",
    "GS.Props.C105_large_violated"
   ],
   "note": "The specification computes in rationals. With a relative tolerance above one the bound can fail by overflow (C105_large_violated), which is why the range is part of the property."
  },
  {
   "property": "C106",
   "status": "proved",
   "theorems": [
    "GS.Props.C106_search",
    "GS.Props.C106_run",
    "GS.Props.C106_run_resumed",
    "GS.Props.C106_missing_derivative"
   ],
   "note": "For a resumed run the solver in force may be the optimizer's or the checkpoint's; the theorem covers both. COBYLA deliberately swallows failures (C64, C82)."
  },
  {
   "property": "C107",
   "status": "partial",
   "theorems": [
    "GS.Props.C107_printed_partial",
    "GS.Props.C107_stage1_callback",
    "GS.Props.C107_resumed_partial",
    "GS.Props.C107_resumed_violated",
    "GS.Props.C107_start_violated",
    "GS.Props.C107_initial_points_violated",
    "GS.Props.C107_silent_iff",
    "GS.Props.C107_both",
    "GS.Props.C107_at_violated",
    "GS.Props.C107_accepted_violated"
   ],
   "note": "Fresh runs with a new observer and runs resumed with stage-2 tracking are covered exactly. The full statement fails: the start of the scatter search is never printed, the numbers of initial and accepted points are wrong, a resumed run prints nothing with the documented set-up, and the point shown is not that of the best objective; each is a witness theorem."
  },
  {
   "property": "C108",
   "status": "partial",
   "theorems": [
    "GS.Props.C108_combine_partial",
    "GS.Props.C108_trials_partial",
    "GS.Props.C108_overflow_violated"
   ],
   "note": "Proved for bounds of magnitude at most 2^1022; for larger bounds the sum of two reference points overflows and the perturbed points are not near the middle (witness theorem)."
  },
  {
   "property": "C109",
   "status": "partial",
   "theorems": [
    "GS.Props.C109_accepted",
    "GS.Props.C109_kept_partial",
    "GS.Props.C109_overflow_violated"
   ],
   "note": "The first half is proved for all finite bounds. The second half needs the sum of the sampled squared distances to be at most 2^1022; beyond, the threshold is infinite and every trial point is lost (witness theorem)."
  },
  {
   "property": "C110",
   "status": "partial",
   "theorems": [
    "GS.Props.C110_elapsed",
    "GS.Props.C110_increasing",
    "GS.Props.C110_not_read",
    "GS.Props.C110_limit_unreached",
    "GS.Props.C110_limit_stops",
    "GS.Props.C110_violated"
   ],
   "note": "Proved within a run, fresh or resumed. Not over restarts: the elapsed time of a resumed run begins at 0 again (witness theorem)."
  },
  {
   "property": "C111",
   "status": "proved",
   "theorems": [
    "GS.Props.C111_determined",
    "GS.Props.C111_settings_ignored",
    "GS.Props.C111_live"
   ],
   "note": ""
  },
  {
   "property": "C112",
   "status": "partial",
   "theorems": [
    "GS.Props.C112_best_violated",
    "GS.Props.C112_run_violated",
    "GS.Props.C112_combined_violated",
    "GS.Props.C112_update_violated",
    "GS.Props.C112_stored_partial"
   ],
   "note": "The stored point is appended to the reference set without its objective. Proved for every reachable state and every point: best_solution never returns it, it is never combined, the next change of the reference set drops it, and run discards it."
  },
  {
   "property": "C113",
   "status": "partial",
   "theorems": [
    "GS.Props.C113_harmless",
    "GS.Props.C113_lines",
    "GS.Props.C113_thresholds_partial",
    "GS.Props.C113_announced_partial",
    "GS.Props.C113_announced_resumed_partial",
    "GS.Props.C113_course_fresh",
    "GS.Props.C113_course_resumed",
    "GS.Props.C113_x0_violated",
    "GS.Props.C113_best_violated"
   ],
   "note": "Proved but for two points. What is announced as x0 is the solution, not the start of its search. A stage-2 solution that replaces the whole set as a new best one is not announced as added. The printed new threshold is the one of C104."
  },
  {
   "property": "C114",
   "status": "partial",
   "theorems": [
    "GS.Props.C114_text_partial",
    "GS.Props.C114_new",
    "GS.Props.C114_points",
    "GS.Props.C114_bounds",
    "GS.Props.C114_sampling",
    "GS.Props.C114_feasible_violated",
    "GS.Props.C114_candidates_violated",
    "GS.Props.C114_population_violated",
    "GS.Props.C114_solver_violated",
    "GS.Props.C114_stage_violated"
   ],
   "note": "Messages determine their errors and contain the numbers of the rejected input. But NoFeasibleSolution always says 0 candidates, a failed local search always names solver \"unknown\", a failed evaluation always names stage \"unknown\" without its cause, \"No feasible candidates found\" is also said if too few were found, and a population of 3 is rejected as not being at least 3."
  },
  {
   "property": "C115",
   "status": "partial",
   "theorems": [
    "GS.Props.C115_harmless_partial",
    "GS.Props.C115_stage1_partial",
    "GS.Props.C115_fresh",
    "GS.Props.C115_resumed",
    "GS.Props.C115_stage1_violated",
    "GS.Props.C115_stage2_violated",
    "GS.Props.C115_write_violated"
   ],
   "note": "With a terminal that can be written the bars do not influence a run, the bar of stage 1 names the phase reached, that of stage 2 begins where it should. But update(1).expect(..) panics if the terminal cannot be written, the bar of stage 1 is advanced five times with a total of three, and that of stage 2 never moves during a run."
  },
  {
   "property": "C116",
   "status": "partial",
   "theorems": [
    "GS.Props.C116_harmless",
    "GS.Props.C116_silent",
    "GS.Props.C116_warning",
    "GS.Props.C116_lines_partial",
    "GS.Props.C116_file",
    "GS.Props.C116_size_violated",
    "GS.Props.C116_kept_violated",
    "GS.Props.C116_unchanged_violated"
   ],
   "note": "All but the numbers of points, which are true if the saved reference set has as many points as the population. With custom points it can be larger; then the announced sizes are wrong. 'Iterations changed' is printed although they did not change."
  },
  {
   "property": "C117",
   "status": "partial",
   "theorems": [
    "GS.Props.C117_solution",
    "GS.Props.C117_repr",
    "GS.Props.C117_set",
    "GS.Props.C117_length",
    "GS.Props.C117_getters",
    "GS.Props.C117_observer_partial",
    "GS.Props.C117_stage1_violated"
   ],
   "note": "Texts of solutions and sets completely. str of an observer is proved for stage 2 and observers not used before. The state of stage 1 is missing from it after optimize, although it was tracked."
  },
  {
   "property": "C118",
   "status": "partial",
   "theorems": [
    "GS.Props.C118_cause",
    "GS.Props.C118_contains",
    "GS.Props.C118_stage1_partial",
    "GS.Props.C118_python",
    "GS.Props.C118_stage2_violated"
   ],
   "note": "All evaluation errors; runs whose objective fails at a point of the initial reference set. A failure in stage 2 is reported without its cause."
  },
  {
   "property": "C119",
   "status": "proved",
   "theorems": [
    "GS.Props.C119_read",
    "GS.Props.C119_best",
    "GS.Props.C119_labels",
    "GS.Props.C119_loaded",
    "GS.Props.C119_final"
   ],
   "note": "All checkpoints; runs in every mode, fresh and resumed."
  },
  {
   "property": "C120",
   "status": "partial",
   "theorems": [
    "GS.Py.C120_classes",
    "GS.Py.C120_searching",
    "GS.Py.C120_cobyla",
    "GS.Py.C120_complete_partial",
    "GS.Py.C120_required_violated",
    "GS.Py.C120_stub_violated"
   ],
   "note": "Holds for COBYLA, and for the classes except for what C120_stub_violated says. False for the seven other builder functions: every argument but l1_coefficient is required."
  },
  {
   "property": "C121",
   "status": "proved",
   "theorems": [
    "GS.Props.C121_stage1",
    "GS.Props.C121_stage2",
    "GS.Props.C121_labels",
    "GS.Props.C121_names",
    "GS.Props.C121_final"
   ],
   "note": "All states; optimizations with an observer for stage 2 that was not used before."
  },
  {
   "property": "C122",
   "status": "proved",
   "theorems": [
    "GS.Props.C122_copies",
    "GS.Props.C122_debug",
    "GS.Props.C122_name",
    "GS.Props.C122_labels"
   ],
   "note": "All configurations and observers; an observer with a poisoned lock panics when copied and is outside the model."
  },
  {
   "property": "C123",
   "status": "partial",
   "theorems": [
    "GS.Props.C123_method_violated",
    "GS.Py.C123_names",
    "GS.Py.C123_stub_partial",
    "GS.Py.C123_stub_violated"
   ],
   "note": "The tables are proved complete and exact for every name. The stub file is only partly right: `C123_stub_violated` lists the names it declares that do not exist."
  },
  {
   "property": "C124",
   "status": "partial",
   "theorems": [
    "GS.Props.C124_statements_partial",
    "GS.Props.C124_chain_violated",
    "GS.Props.C124_one_violated"
   ],
   "note": "Proved for calls made one by one. The methods return None, so two chained calls raise AttributeError and `observer = Observer().with_\u2026()` binds None: `C124_chain_violated`, `C124_one_violated`."
  },
  {
   "property": "C125",
   "status": "partial",
   "theorems": [
    "GS.Props.C125_bound_partial",
    "GS.Props.C125_refused",
    "GS.Props.C125_defaults",
    "GS.Props.C125_stub_violated"
   ],
   "note": "Proved for the order of the signature. The stub file has `local_solver` in third place, the function `observer`: a call by position as in the stub raises TypeError (`C125_stub_violated`)."
  },
  {
   "property": "C126",
   "status": "proved",
   "theorems": [
    "GS.Props.C126_attributes",
    "GS.Props.C126_program",
    "GS.Props.C126_properties"
   ],
   "note": "Observers that were not used before; for others see C79_reuse_violated. After a run that ends in stage 1, stage2() is None."
  },
  {
   "property": "C127",
   "status": "proved",
   "theorems": [
    "GS.Props.C127_accepts",
    "GS.Props.C127_outcome",
    "GS.Props.C127_returned"
   ],
   "note": "nested lists of starting points are read as in C70; comparisons with NaN parameters are those of the code"
  },
  {
   "property": "C128",
   "status": "partial",
   "theorems": [
    "GS.Props.C128_passed_partial",
    "GS.Props.C128_returned",
    "GS.Props.C128_missing",
    "GS.Props.C128_shapes_violated"
   ],
   "note": "Proved except for dimensions: a gradient of the wrong length, a Hessian of the wrong size and bounds with a third column are passed on (`C128_shapes_violated`)."
  },
  {
   "property": "C129",
   "status": "proved",
   "theorems": [
    "GS.Props.C129_sets",
    "GS.Props.C129_solutions",
    "GS.Props.C129_lists",
    "GS.Props.C129_reads"
   ],
   "note": ""
  },
  {
   "property": "C130",
   "status": "proved",
   "theorems": [
    "GS.Props.C130_sequential",
    "GS.Props.C130_fresh",
    "GS.Props.C130_python"
   ],
   "note": ""
  }
 ]
}
