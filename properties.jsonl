{"id": "C01", "title": "Distance filter decides exactly by separation from every recorded solution", "statement": "DistanceFilter::check(point) is true exactly when the computed squared distance from the point to every solution recorded with add_solution is strictly greater than distance_factor squared. Adding solutions can only turn acceptance into rejection, the order of additions is irrelevant, and a point with finite coordinates that has itself been recorded is never accepted again.", "quantifier": "every history of add_solution calls, every point, every distance_factor including 0, infinity and NaN", "why_tests_cant": "a unit test fixes a few points; the claim is about all histories and all double values, including non-finite ones", "anchors": ["src/filters.rs: DistanceFilter::new, add_solution, check, set_solutions, euclidean_distance_squared"]}
{"id": "C02", "title": "Merit filter accepts exactly the values not above the last threshold", "statement": "After any sequence of update_threshold calls MeritFilter::check(v) holds exactly when v <= the last threshold set (positive infinity before the first), so NaN values are never accepted, and lowering the threshold never admits a value that was rejected before.", "quantifier": "every sequence of threshold updates and every double value", "why_tests_cant": "histories and non-finite values are unbounded", "anchors": ["src/filters.rs: MeritFilter::new, update_threshold, check"]}
{"id": "C03", "title": "Threshold relaxation never tightens the merit filter", "statement": "When the wait cycle expires the merit threshold t is replaced by t + threshold_factor * (1 + |t|) computed in floating point. For every finite t and every positive threshold_factor accepted by OQNLP::new the new threshold is not below t, so every start value accepted before is still accepted; and it is strictly larger whenever threshold_factor is at least f64::EPSILON (2^-52).", "quantifier": "every finite threshold and every positive factor, over all rounding cases of binary64", "why_tests_cant": "rounding behaviour has to be covered for all 2^64 thresholds", "anchors": ["src/oqnlp.rs: OQNLP::adjust_threshold, OQNLP::new", "src/filters.rs: MeritFilter"]}
{"id": "C04", "title": "best_solution returns the first minimal member", "statement": "SolutionSet::best_solution returns None exactly for an empty set; otherwise it returns a member whose objective is not above that of any other member in the IEEE total order (hence <= every objective that is a number, unless some objective is a NaN with the sign bit set), and among equal objectives the one with the lowest index.", "quantifier": "every solution set, any length, any objectives including NaN and signed zeros", "why_tests_cant": "sets of arbitrary length and adversarial float values", "anchors": ["src/types.rs: SolutionSet::best_solution, len, is_empty, solutions", "python/src/lib.rs: PySolutionSet::best_solution"]}
{"id": "C05", "title": "Returned solutions are near-optimal relative to the head, mutually distinct and genuine", "statement": "For every sequence of local solutions processed during a run, the solution set (if present) is non-empty, every later member has an objective within the tolerance max(abs_tol, rel_tol*max(|a|,|b|)) of the first member, every two members are at squared distance not smaller than distance_factor squared (for the order in which they were inserted), and every member is one of the local solver's results.", "quantifier": "every sequence of local-solver results, every tolerance and distance factor", "why_tests_cant": "an invariant over unbounded histories", "anchors": ["src/oqnlp.rs: OQNLP::process_local_solution, is_duplicate_in_set, with_tolerance"]}
{"id": "C06", "title": "The reference objective of the solution set never gets worse", "statement": "While a run progresses the objective of the first member of the solution set never increases: each time the set is replaced, the new first objective is strictly smaller than the previous one (non-negative tolerances).", "quantifier": "every sequence of local-solver results", "why_tests_cant": "needs induction over histories and float comparisons", "anchors": ["src/oqnlp.rs: OQNLP::process_local_solution"]}
{"id": "C07", "title": "The best objective ever stored in the solution set is never lost", "statement": "The best objective held by the solution set (as reported by best_solution) never increases during a run, for tolerances 0 <= rel_tol.", "quantifier": "every sequence of local-solver results and every non-negative tolerance pair", "why_tests_cant": "counterexamples only exist for adversarial tolerance/objective combinations and need all rounding cases", "anchors": ["src/oqnlp.rs: OQNLP::process_local_solution, with_tolerance", "src/types.rs: SolutionSet::best_solution"]}
{"id": "C08", "title": "No significantly better local solution is ever discarded", "statement": "At any moment of a run, no admissible local solution processed so far has an objective below (first member's objective - tolerance): the returned set is within tolerance of the best local solution found.", "quantifier": "every sequence of local-solver results", "why_tests_cant": "quantifies over the entire history", "anchors": ["src/oqnlp.rs: OQNLP::process_local_solution"]}
{"id": "C09", "title": "Every local solution feeds the distance filter", "statement": "After any sequence of processed local solutions the distance filter contains exactly those solutions in order, whether or not they entered the solution set (also when rejected as out of bounds, duplicate or worse), so no later local search starts within distance_factor of any of them in sequential mode.", "quantifier": "every sequence of local-solver results", "why_tests_cant": "history invariant", "anchors": ["src/oqnlp.rs: OQNLP::process_local_solution, should_start_local", "src/filters.rs: DistanceFilter::add_solution"]}
{"id": "C10", "title": "exclude_out_of_bounds keeps every returned solution inside the bounds", "statement": "With exclude_out_of_bounds enabled, every solution returned by run has each coordinate between its lower and upper bound.", "quantifier": "every problem, local solver behaviour and execution", "why_tests_cant": "the local solver is arbitrary and may return any point, including NaN coordinates", "anchors": ["src/oqnlp.rs: OQNLP::is_within_bounds, process_local_solution, exclude_out_of_bounds, set_exclude_out_of_bounds, run"]}
{"id": "C11", "title": "OQNLP::new accepts exactly the documented parameter ranges", "statement": "OQNLP::new succeeds exactly when population_size is at least 3 (as documented), iterations <= population_size, threshold_factor is positive and distance_factor is non-negative, and otherwise returns the error naming the first violated condition with the offending value.", "quantifier": "every parameter record including NaN factors and extreme sizes", "why_tests_cant": "unbounded integers and all float values", "anchors": ["src/oqnlp.rs: OQNLP::new, OQNLPError", "src/types.rs: OQNLPParams", "src/filters.rs: DistanceFilter::new"]}
{"id": "C12", "title": "with_points accepts exactly in-bounds points of the right dimension", "statement": "OQNLP::with_points succeeds exactly when every row has as many coordinates as the problem has bounds and every coordinate lies between its bounds; otherwise it reports the first offending row and leaves no points registered.", "quantifier": "every point matrix and bound matrix", "why_tests_cant": "arbitrary sizes, NaN coordinates", "anchors": ["src/oqnlp.rs: OQNLP::with_points"]}
{"id": "C13", "title": "Bounds with lower >= upper are rejected before any evaluation", "statement": "If some variable does not have lower < upper then ScatterSearch::new (and hence run) returns InvalidBounds naming the first such variable, without calling the objective; otherwise construction succeeds.", "quantifier": "every bound matrix", "why_tests_cant": "any number of variables and any float values including NaN", "anchors": ["src/scatter_search.rs: ScatterSearch::new", "src/oqnlp.rs: OQNLP::run"]}
{"id": "C14", "title": "Stage 1 points stay inside the variable bounds", "statement": "Every point of the reference set and every trial point produced by scatter search lies between the bounds in each coordinate, for valid bounds and in-bounds custom points.", "quantifier": "every problem, seed, population size, custom points, RNG stream and schedule", "why_tests_cant": "depends on float rounding of midpoints and combinations for all bounds", "anchors": ["src/scatter_search.rs: initialize_reference_set, generate_stratified_samples, combine_points, apply_bounds, update_reference_set"]}
{"id": "C15", "title": "Stage 1 points satisfy the constraints", "statement": "If the problem has constraints, every point in the reference set returned by scatter search satisfies all of them (no constraint value below zero), including seed, custom and trial points, at every thread schedule.", "quantifier": "every problem with constraints, seed, custom points and schedule", "why_tests_cant": "arbitrary constraint functions and random streams", "anchors": ["src/scatter_search.rs: is_feasible, initialize_reference_set, diversify_reference_set, update_reference_set"]}
{"id": "C16", "title": "Returned objectives belong to the returned points", "statement": "In the result of ScatterSearch::run each pair (x, f) satisfies objective(x) = Ok(f).", "quantifier": "every problem, seed, schedule and sort implementation", "why_tests_cant": "sorting, selection and truncation permute two parallel arrays", "anchors": ["src/scatter_search.rs: run, initialize_reference_set, update_reference_set"]}
{"id": "C17", "title": "Reference set size", "statement": "A successful ScatterSearch::run returns exactly max(population_size, seeds + feasible custom points) points if no trial point is accepted, and exactly population_size points if one is.", "quantifier": "every problem, seed, custom point set", "why_tests_cant": "sizes and acceptance patterns are unbounded", "anchors": ["src/scatter_search.rs: diversify_reference_set, update_reference_set, run"]}
{"id": "C18", "title": "The starting point of the first local search is the best reference point", "statement": "The candidate returned by ScatterSearch::run is a reference-set point whose objective is minimal in the set (IEEE total order), and it is no worse than any seed point, feasible custom point or diversified sample that was evaluated.", "quantifier": "every problem, seed and custom point set", "why_tests_cant": "involves select_nth/sort contracts for arbitrary lists", "anchors": ["src/scatter_search.rs: best_solution, update_reference_set, run", "src/oqnlp.rs: OQNLP::run"]}
{"id": "C19", "title": "Intensification keeps the best population_size points", "statement": "update_reference_set keeps a multiset of points such that no discarded point (old or accepted trial) has an objective below that of a kept one, and neither the best nor the worst objective of the set ever increases.", "quantifier": "every reference set and trial list", "why_tests_cant": "arbitrary lists and unstable-sort behaviour", "anchors": ["src/scatter_search.rs: update_reference_set"]}
{"id": "C20", "title": "Custom starting points are all evaluated and only lost to better points", "statement": "Every custom point (feasible, if there are constraints) is evaluated in stage 1, and it is absent from the final reference set only if population_size points with objectives not worse than it were kept instead.", "quantifier": "every list of custom points and problem", "why_tests_cant": "unbounded lists", "anchors": ["src/scatter_search.rs: with_custom_points, initialize_reference_set, update_reference_set", "src/oqnlp.rs: with_points"]}
{"id": "C21", "title": "Diversification is greedy max-min selection", "statement": "Each point added by diversification is a remaining sampled candidate whose distance to the current reference set is maximal, the candidates are never reused, and the loop stops exactly at population_size points or fails with NoCandidates when candidates run out.", "quantifier": "every seed set, candidate list and population size", "why_tests_cant": "loop invariant over cached distances", "anchors": ["src/scatter_search.rs: diversify_reference_set, min_distance"]}
{"id": "C22", "title": "Constraint sampling terminates and fails only when it must", "statement": "With constraints, stage 1 draws at most population_size + 20*population_size samples; it fails with NoFeasibleCandidates exactly when no sampled candidate was feasible or fewer than population_size points (seeds, custom, candidates) are available.", "quantifier": "every constraint set and RNG stream", "why_tests_cant": "the number of retries and outcomes are unbounded", "anchors": ["src/scatter_search.rs: diversify_reference_set, generate_stratified_samples"]}
{"id": "C23", "title": "Trial point generation combines exactly the best k pairs", "statement": "generate_trial_points produces exactly six points for each of the k(k-1)/2 unordered pairs among the first k = min(len, max(2, floor(sqrt(len)))) reference points and draws exactly one seed per pair, identically in sequential and parallel mode.", "quantifier": "every reference set size", "why_tests_cant": "combinatorial identity for all sizes", "anchors": ["src/scatter_search.rs: generate_trial_points, combine_points"]}
{"id": "C24", "title": "Stage 1 result does not depend on the thread schedule", "statement": "For a fixed seed and problem, parallel stage 1 yields the same reference set for every way rayon may split and join the work.", "quantifier": "every split tree of every parallel reduction", "why_tests_cant": "thread schedules cannot be enumerated by tests", "anchors": ["src/scatter_search.rs: min_distance, diversify_reference_set, update_reference_set, best_solution"]}
{"id": "C25", "title": "Sequential and parallel stage 1 agree", "statement": "Disabling parallelism (parallel(false)) does not change the reference set computed by stage 1.", "quantifier": "every problem, seed and schedule", "why_tests_cant": "differences only appear for coincident or near-coincident points", "anchors": ["src/scatter_search.rs: min_distance, diversify_reference_set, parallel"]}
{"id": "C26", "title": "Stage 2 examines each reference point at most once, in order", "statement": "A fresh sequential run examines the first min(iterations, |reference set|) points of the shuffled reference set, each exactly once and in order, unless it stops early because of the time limit, the target objective or an error; a local search is started only from an examined point and at most once per point (plus one in stage 1).", "quantifier": "every problem, seed, batch size and execution", "why_tests_cant": "trace property over unbounded executions", "anchors": ["src/oqnlp.rs: OQNLP::run, process_batch_sequential"]}
{"id": "C27", "title": "A local search starts only from points passing both filters", "statement": "In sequential stage 2 the local solver is started from a reference point exactly when its merit value is <= the current threshold and it is farther than distance_factor from every local solution found so far.", "quantifier": "every execution", "why_tests_cant": "trace property", "anchors": ["src/oqnlp.rs: process_batch_sequential, should_start_local"]}
{"id": "C28", "title": "The merit filter judges a point by its own objective value", "statement": "Whenever stage 2 examines a reference point, the value compared with the merit threshold is objective(point).", "quantifier": "every problem, seed and execution", "why_tests_cant": "the shuffle is a seed-dependent permutation", "anchors": ["src/oqnlp.rs: OQNLP::run, process_batch_sequential, process_batch_parallel"]}
{"id": "C29", "title": "Threshold dynamics in sequential stage 2", "statement": "In sequential mode the merit threshold only decreases (or stays) when a local search is started and only changes otherwise when the number of rejected points since the last relaxation reaches wait_cycle, in which case it is relaxed exactly once and the counter restarts.", "quantifier": "every execution", "why_tests_cant": "state-machine invariant over unbounded histories", "anchors": ["src/oqnlp.rs: process_batch_sequential, adjust_threshold, process_local_solution"]}
{"id": "C30", "title": "Target objective stops the search", "statement": "If a target is set, then as soon as a processed local solution makes the best objective <= target (and in bounds when exclude_out_of_bounds is set) no further local search is started in a sequential run and run returns a set whose best objective is <= target; without timeout or target the run examines all its iterations.", "quantifier": "every problem, solver behaviour and target", "why_tests_cant": "depends on the moment in the execution", "anchors": ["src/oqnlp.rs: target_objective, target_objective_reached, run, process_batch_sequential"]}
{"id": "C31", "title": "run returns a non-empty solution set or an error", "statement": "If run returns Ok, the set is non-empty; it returns NoFeasibleSolution only when exclude_out_of_bounds is set and every local solution was outside the bounds; a local-solver or evaluation failure is returned as an error of the corresponding kind.", "quantifier": "every execution", "why_tests_cant": "all error paths and histories", "anchors": ["src/oqnlp.rs: OQNLP::run, OQNLPError"]}
{"id": "C32", "title": "The number of local searches and evaluations is bounded", "statement": "A run starts at most 1 + iterations local searches and stage 2 evaluates the objective at most iterations times itself; the run always terminates when the local solver does.", "quantifier": "every execution, sequential or parallel", "why_tests_cant": "bounds for arbitrary parameters", "anchors": ["src/oqnlp.rs: run, process_batch_sequential, process_batch_parallel"]}
{"id": "C33", "title": "Sequential mode ignores the batch size", "statement": "With parallel(false), batch_iterations has no effect on the result; and processing the iterations in sequential batches of any positive size starts the same local searches and returns the same set as processing them one at a time.", "quantifier": "every batch size, problem and execution", "why_tests_cant": "unbounded batch sizes and histories", "anchors": ["src/oqnlp.rs: batch_iterations, parallel, run, process_batch_sequential"]}
{"id": "C34", "title": "Parallel stage 2 is independent of the thread schedule", "statement": "For a fixed batch size the parallel stage 2 yields the same state for every order in which rayon completes the objective evaluations and local searches of a batch.", "quantifier": "every completion order", "why_tests_cant": "schedules cannot be enumerated", "anchors": ["src/oqnlp.rs: process_batch_parallel"]}
{"id": "C35", "title": "Parallel stage 2 starts no local search a sequential run would filter out by distance", "statement": "In parallel stage 2 no local search is started from a point within distance_factor of a local solution already found.", "quantifier": "every batch and execution", "why_tests_cant": "depends on the interaction of candidates inside a batch", "anchors": ["src/oqnlp.rs: process_batch_parallel"]}
{"id": "C36", "title": "Results do not depend on the number of threads", "statement": "With default settings, the same seed and problem give the same solution set regardless of the number of worker threads.", "quantifier": "every thread count", "why_tests_cant": "machine dependent", "anchors": ["src/oqnlp.rs: run (effective_batch_size), process_batch_parallel"]}
{"id": "C37", "title": "Attaching an observer never changes the optimization", "statement": "For every observer (any tracking flags, mode, frequency > 0) and any callback that leaves the frequency positive, run with the observer returns the same result, examines the same points and writes the same checkpoints as run without it.", "quantifier": "every observer configuration and callback behaviour", "why_tests_cant": "callbacks are arbitrary functions", "anchors": ["src/oqnlp.rs: add_observer, run, process_batch_sequential, process_batch_parallel", "src/observers/mod.rs: Observer"]}
{"id": "C38", "title": "Any u64 seed is usable", "statement": "For every u64 seed run behaves normally (no arithmetic overflow).", "quantifier": "every seed and iteration count", "why_tests_cant": "only the extreme seeds fail", "anchors": ["src/oqnlp.rs: run, process_batch_sequential, process_batch_parallel, expand_reference_set"]}
{"id": "C39", "title": "Checkpoint save/load round trip", "statement": "Decoding the bytes written by save_checkpoint returns a checkpoint equal to the saved one in every field, bit for bit (also NaN payloads, infinities, empty and absent solution sets), and the decoder consumes exactly the encoded bytes.", "quantifier": "every checkpoint value", "why_tests_cant": "unbounded nested structures and all float bit patterns", "anchors": ["src/types.rs: OQNLPCheckpoint, serialize_vec_array1, deserialize_vec_array1", "src/checkpoint.rs: save_checkpoint, load_checkpoint_from_path, read_checkpoint_file"]}
{"id": "C40", "title": "A truncated checkpoint file never loads", "statement": "If the process dies while a checkpoint is being written, leaving any strict prefix of its bytes, loading that file returns an error and never a checkpoint.", "quantifier": "every checkpoint and every crash point inside the write", "why_tests_cant": "all crash points of all encodings", "anchors": ["src/checkpoint.rs: save_checkpoint (fs::write), load_checkpoint_from_path"]}
{"id": "C41", "title": "Checkpoint file names identify the iteration", "statement": "With keep_all, distinct iterations of one run are written to distinct files, the iteration is recovered exactly from the name for every usize, and scanning the directory never panics, whatever file names it contains.", "quantifier": "every checkpoint name, every usize iteration, every directory content", "why_tests_cant": "all strings and integers", "anchors": ["src/checkpoint.rs: save_checkpoint, find_latest_checkpoint, cleanup_old_checkpoints"]}
{"id": "C42", "title": "The latest checkpoint is the one with the largest iteration", "statement": "After any sequence of saves, load_latest_checkpoint returns the checkpoint saved for the largest iteration (keep_all) or the last saved one (otherwise); checkpoint_exists is true exactly when one has been saved.", "quantifier": "every sequence of saves and any unrelated files in the directory, any directory order", "why_tests_cant": "unbounded histories and directory orders", "anchors": ["src/checkpoint.rs: load_latest_checkpoint, find_latest_checkpoint, checkpoint_exists, save_checkpoint"]}
{"id": "C43", "title": "Cleanup keeps exactly the newest checkpoints", "statement": "cleanup_old_checkpoints(k) with keep_all and k > 0 removes all but the k checkpoints with the largest iterations and touches no other file; it is idempotent, never removes the latest checkpoint, and is a no-op otherwise.", "quantifier": "every directory content and k", "why_tests_cant": "unbounded directories", "anchors": ["src/checkpoint.rs: cleanup_old_checkpoints"]}
{"id": "C44", "title": "A crash never loses the last complete checkpoint", "statement": "If the process dies at any point, including during a checkpoint write, a later run can load the most recent checkpoint whose write had completed.", "quantifier": "every crash point of every run", "why_tests_cant": "crash points cannot be enumerated by tests", "anchors": ["src/checkpoint.rs: save_checkpoint, load_latest_checkpoint", "src/oqnlp.rs: maybe_save_checkpoint"]}
{"id": "C45", "title": "Checkpoints of different names do not interfere", "statement": "Managers with different checkpoint_name in the same directory never load or delete each other's files.", "quantifier": "every pair of names, save histories", "why_tests_cant": "all string pairs, including prefixes of each other", "anchors": ["src/checkpoint.rs: find_latest_checkpoint, cleanup_old_checkpoints, save_checkpoint"]}
{"id": "C46", "title": "Restoring a checkpoint restores the optimizer state", "statement": "Creating a checkpoint and restoring it into an optimizer for the same problem reproduces parameters, threshold, solution set, reference set, counters, seed, target, bounds flag, batch settings, tolerances and distance-filter contents.", "quantifier": "every optimizer state", "why_tests_cant": "every field combination", "anchors": ["src/oqnlp.rs: create_checkpoint, restore_from_checkpoint"]}
{"id": "C47", "title": "Resuming continues the interrupted run", "statement": "Interrupting a sequential run at any checkpoint and resuming with auto_resume yields the same solution set as the uninterrupted run.", "quantifier": "every problem, seed, interruption point", "why_tests_cant": "all interruption points", "anchors": ["src/oqnlp.rs: run, try_resume_from_checkpoint, restore_from_checkpoint, maybe_save_checkpoint"]}
{"id": "C48", "title": "A resumed run never ends with a worse solution than the checkpoint", "statement": "After resuming, the first-member objective of the returned solution set is not above that of the checkpoint's solution set and the distance filter still contains every solution recorded in the checkpoint.", "quantifier": "every checkpoint and continuation", "why_tests_cant": "history invariant across restarts", "anchors": ["src/oqnlp.rs: restore_from_checkpoint, run, process_local_solution"]}
{"id": "C49", "title": "Checkpoints are written on schedule", "statement": "In a run with checkpointing, sequential or parallel, a checkpoint is written after each completed iteration whose index is a multiple of save_frequency and at the end of stage 2, and each records the index, threshold, solution set and filter contents at that moment.", "quantifier": "every execution and save_frequency > 0", "why_tests_cant": "trace property", "anchors": ["src/oqnlp.rs: maybe_save_checkpoint, maybe_save_final_checkpoint, create_checkpoint"]}
{"id": "C50", "title": "Modified parameters take effect when resuming", "statement": "After resume_with_modified_params(new) returns true, the following run continues from the checkpoint with the new parameters.", "quantifier": "every checkpoint, new parameter set and auto_resume setting", "why_tests_cant": "depends on disk state and flags", "anchors": ["src/oqnlp.rs: resume_with_modified_params, resume_from_checkpoint_with_params, expand_reference_set, run"]}
{"id": "C51", "title": "Expanding the population keeps all existing points", "statement": "resume_with_modified_params with a larger population keeps every point of the saved reference set as a prefix, in order, and extends it to exactly the new size with in-bounds (and feasible) points; a smaller population leaves the reference set unchanged.", "quantifier": "every checkpoint and population size", "why_tests_cant": "unbounded sizes", "anchors": ["src/oqnlp.rs: resume_with_modified_params, expand_reference_set", "src/scatter_search.rs: diversify_reference_set"]}
{"id": "C52", "title": "Checkpoints are portable between builds", "statement": "A checkpoint written by a build with one set of cargo features loads with the same meaning in a build with another.", "quantifier": "every checkpoint and feature set", "why_tests_cant": "cross-build encodings", "anchors": ["src/types.rs: LocalSolverType, OQNLPCheckpoint", "src/local_solver/builders.rs: LocalSolverConfig"]}
{"id": "C53", "title": "Stage visibility of observers", "statement": "Over any sequence of observer operations stage1() is Some exactly when stage-1 tracking was enabled and stage 1 has not completed, stage1_final() exactly when tracking was enabled, and stage2() exactly when stage-2 tracking was enabled and stage 2 has started.", "quantifier": "every sequence of observer operations", "why_tests_cant": "unbounded call sequences", "anchors": ["src/observers/mod.rs: stage1, stage1_final, stage2, mark_stage1_complete, mark_stage2_started, should_observe_stage1, should_observe_stage2"]}
{"id": "C54", "title": "Observer metrics are consistent", "statement": "Counters never decrease, improved_local_calls never exceeds local_solver_calls, and best_objective is the minimum of the non-NaN objectives reported so far (NaN if none) with best_point the point given in the first report of that minimum (set_best_objective gives none).", "quantifier": "every sequence of reports", "why_tests_cant": "unbounded histories and float values", "anchors": ["src/observers/stage1.rs: Stage1State", "src/observers/stage2.rs: Stage2State"]}
{"id": "C55", "title": "Observed metrics describe the run", "statement": "At the end of a run with stage-2 tracking, local_solver_calls is the number of stage-2 local searches, solution_set_size the size of the returned set, and improved_local_calls the number of searches that changed the solution set.", "quantifier": "every execution", "why_tests_cant": "trace property relating two state machines", "anchors": ["src/oqnlp.rs: process_batch_sequential, process_local_solution", "src/observers/stage2.rs: add_local_solver_call"]}
{"id": "C56", "title": "Stage 1 evaluation count is exact", "statement": "stage1.function_evaluations() equals the number of objective evaluations performed in stage 1.", "quantifier": "every problem and execution", "why_tests_cant": "counts depend on filtering of trial points", "anchors": ["src/scatter_search.rs: run, update_reference_set", "src/observers/stage1.rs: add_function_evaluations"]}
{"id": "C57", "title": "Callbacks fire exactly on multiples of the frequency", "statement": "In stage 2, sequential or parallel, the callback is invoked exactly for the processed iterations whose index is a multiple of callback_frequency (except one that reaches the target), and never without a callback.", "quantifier": "every frequency and execution", "why_tests_cant": "trace property, frequency 0 included", "anchors": ["src/observers/mod.rs: should_invoke_callback, invoke_callback, with_callback_frequency", "src/oqnlp.rs: process_batch_sequential, process_batch_parallel"]}
{"id": "C58", "title": "unique_updates prints exactly the changes", "statement": "With unique_updates the default callback prints a stage-2 line exactly when some displayed metric differs from the previous invocation (or it is the first).", "quantifier": "every sequence of stage-2 states", "why_tests_cant": "histories, NaN values", "anchors": ["src/observers/mod.rs: PreviousStage2State::has_changed, with_default_callback, unique_updates"]}
{"id": "C59", "title": "Mode restricts what is observed", "statement": "An observer in Stage1Only mode never receives stage-2 data and vice versa.", "quantifier": "every execution and mode", "why_tests_cant": "trace property", "anchors": ["src/observers/mod.rs: with_mode, should_observe_stage1, should_observe_stage2", "src/oqnlp.rs: process_local_solution"]}
{"id": "C60", "title": "Stage timers stop when the stage ends", "statement": "After a stage has ended total_time() keeps returning the time at which it ended.", "quantifier": "every clock behaviour", "why_tests_cant": "time dependent", "anchors": ["src/observers/stage1.rs: start, end, total_time", "src/observers/stage2.rs: start, end, total_time"]}
{"id": "C61", "title": "Solver dispatch", "statement": "solve runs the algorithm named by the solver type with the supplied configuration; a configuration of another solver yields the error of the requested solver type without evaluating the objective.", "quantifier": "every solver type, configuration and problem", "why_tests_cant": "all pairs of types and configurations", "anchors": ["src/local_solver/runner.rs: solve, solve_with_tracking, solve_lbfgs, solve_nelder_mead, solve_steepestdescent, solve_trust_region, solve_newton_cg, solve_cobyla"]}
{"id": "C62", "title": "Every configured setting reaches the solver", "statement": "Two configurations that differ in any field lead to different solver set-ups: no setting supplied through a builder is silently ignored.", "quantifier": "every configuration", "why_tests_cant": "all field values", "anchors": ["src/local_solver/runner.rs: solve_newton_cg, solve_cobyla", "src/local_solver/builders.rs"]}
{"id": "C63", "title": "Tracking evaluations does not change the solution", "statement": "solve_with_tracking returns the same solution or error with tracking on and off; the count is 0 when off and equals the number of objective calls when on.", "quantifier": "every solver behaviour (any sequence of evaluations)", "why_tests_cant": "solvers are arbitrary programs over the objective", "anchors": ["src/local_solver/runner.rs: solve, solve_with_tracking"]}
{"id": "C64", "title": "COBYLA survives failing evaluations", "statement": "With COBYLA an objective evaluation error is presented to the solver as +infinity and never aborts the local search, whereas argmin solvers fail with RunFailed; a bounds/dimension mismatch is reported before any evaluation.", "quantifier": "every problem and solver behaviour", "why_tests_cant": "arbitrary failure patterns", "anchors": ["src/local_solver/runner.rs: solve_cobyla, solve_lbfgs"]}
{"id": "C65", "title": "Nelder-Mead starts from a proper simplex", "statement": "The initial simplex has n+1 vertices: the start point and, for each coordinate, the start point with that coordinate shifted by simplex_delta; the vertices are pairwise distinct.", "quantifier": "every start point and simplex_delta", "why_tests_cant": "rounding may absorb the shift", "anchors": ["src/local_solver/runner.rs: solve_nelder_mead"]}
{"id": "C66", "title": "Builders produce what was set", "statement": "For every builder, build returns a configuration in which each field holds the last value set for it, or its documented default if never set, independent of the order of setter calls on different fields.", "quantifier": "every sequence of setter calls", "why_tests_cant": "unbounded call sequences", "anchors": ["src/local_solver/builders.rs: LBFGSBuilder, NelderMeadBuilder, SteepestDescentBuilder, TrustRegionBuilder, NewtonCGBuilder, COBYLABuilder, MoreThuenteBuilder, HagerZhangBuilder"]}
{"id": "C67", "title": "Solver names parse case-insensitively and unambiguously", "statement": "LocalSolverType::from_string accepts exactly the documented names in any letter case, maps each to its solver, and rejects every other string.", "quantifier": "every string", "why_tests_cant": "all strings", "anchors": ["src/types.rs: LocalSolverType::from_string"]}
{"id": "C68", "title": "Constraint report is consistent", "statement": "display_with_constraints prints one line per solution and constraint; the mark is a check exactly when the text says satisfied, and it says violated exactly when the constraint value is negative.", "quantifier": "every solution set and constraint values including NaN", "why_tests_cant": "NaN values and arbitrary sizes", "anchors": ["src/types.rs: display_with_constraints, display_with_problem"]}
{"id": "C69", "title": "Python constraints are evaluated for the right problem", "statement": "A Python constraint function handed to the solver evaluates the corresponding constraint of the problem it was obtained from, on every thread and regardless of other problems in the process.", "quantifier": "every interleaving of problems and threads", "why_tests_cant": "thread-local state and schedules", "anchors": ["python/src/lib.rs: constraints, evaluate_constraints_for_id, get_constraint_functions, CURRENT_PROBLEM_ID"]}
{"id": "C70", "title": "Ragged Python point lists are rejected", "statement": "optimize(with_points=...) and variable_bounds reject nested lists whose rows differ in length.", "quantifier": "every nested list", "why_tests_cant": "all shapes", "anchors": ["python/src/lib.rs: optimize, variable_bounds, hessian"]}
{"id": "C71", "title": "Python solution sets behave as sequences", "statement": "Iterating a PySolutionSet yields its solutions in order exactly once, indexing i succeeds exactly for i < len with the i-th solution, and best_solution agrees with the Rust SolutionSet.", "quantifier": "every solution set and iterator use", "why_tests_cant": "arbitrary lengths", "anchors": ["python/src/lib.rs: PySolutionSet, PySolutionSetIterator"]}
{"id": "C72", "title": "Python solver configuration matches the solver name", "statement": "optimize passes the given configuration object through to the Rust configuration field by field when its type matches the named solver and raises ValueError otherwise; without configuration the solver's defaults are used.", "quantifier": "every solver name and configuration object", "why_tests_cant": "all combinations", "anchors": ["python/src/lib.rs: optimize", "python/src/builders.rs: to_builder"]}
{"id": "C73", "title": "Configuration errors name the requested solver", "statement": "When a local search is refused because of its configuration, the error says that the configuration of the requested solver is invalid, whichever of its settings (line search included) is the culprit.", "quantifier": "every solver type, configuration and solver library", "why_tests_cant": "every setting of every solver can be rejected in its own way", "anchors": ["src/local_solver/runner.rs: solve_newton_cg", "src/local_solver/runner.rs: LocalSolverError"]}
{"id": "C74", "title": "Python configuration objects default like the Rust builders", "statement": "A configuration object created in Python without arguments describes the same solver configuration as the corresponding Rust builder's default.", "quantifier": "every configuration class", "why_tests_cant": "the two sets of defaults are written down independently in two crates", "anchors": ["python/src/builders.rs: pyo3 signatures", "src/local_solver/builders.rs: Default implementations"]}
{"id": "C75", "title": "Python results are sorted by objective", "statement": "The solutions returned by optimize are ordered by objective value, best first.", "quantifier": "every problem, parameter set and run", "why_tests_cant": "depends on the order in which solutions are found", "anchors": ["python/src/lib.rs: PySolutionSet, optimize", "src/oqnlp.rs: process_local_solution"]}
{"id": "C76", "title": "Python evaluations never deadlock", "statement": "However many optimizations and worker threads evaluate objectives, gradients, constraints and callbacks written in Python, some evaluation can always proceed until all are finished.", "quantifier": "every set of threads, every sequence of evaluations and every schedule, including Python functions that use the library", "why_tests_cant": "all interleavings of lock operations", "anchors": ["python/src/lib.rs: PYTHON_CALL_MUTEX, CONSTRAINT_REGISTRY, objective, constraints, evaluate_constraints_for_id"]}
{"id": "C77", "title": "A failing Python constraint does not affect later optimizations", "statement": "If a Python constraint raises or returns something that is not a float, other problems can still be optimized in the same process.", "quantifier": "every history of problems, evaluations and failures", "why_tests_cant": "arbitrary histories of a process", "anchors": ["python/src/lib.rs: evaluate_constraints_for_id, PyProblem::constraints"]}
{"id": "C78", "title": "The last chosen Python observer callback is used", "statement": "Of the calls with_callback, with_default_callback, with_stage1_callback and with_stage2_callback on an observer the last one determines the callback used by optimize.", "quantifier": "every sequence of observer method calls", "why_tests_cant": "unbounded call sequences", "anchors": ["python/src/observers.rs: PyObserver, clone_inner"]}
{"id": "C79", "title": "A Python observer shows the optimization it was passed to", "statement": "After a successful optimize the observer shows the counts of that optimization; after a failed one it is unchanged.", "quantifier": "every observer, including ones used before, and every run", "why_tests_cant": "depends on the history of the observer", "anchors": ["python/src/lib.rs: optimize", "python/src/observers.rs: clone_inner", "src/observers/stage2.rs"]}
{"id": "C80", "title": "A local search returns exactly what the solver ended with", "statement": "A local search is either refused before any evaluation, or is one conversation of the configured solver, started at the given point with the configured limit, with the user's problem; the reported solution is the solver's final answer and NoSolution means that it had none.", "quantifier": "every solver, configuration, problem, starting point and tracking mode", "why_tests_cant": "ranges over every adaptive behaviour of the solver library and every failing evaluation", "anchors": ["src/local_solver/runner.rs: solve_with_tracking, solve_lbfgs, solve_nelder_mead, solve_steepestdescent, solve_trust_region, solve_newton_cg, solve_cobyla"]}
{"id": "C81", "title": "A configuration of another solver stops the run before any local search work", "statement": "If the local solver configuration belongs to another solver than the chosen one, a fresh run fails with the configuration error of the chosen solver right after stage 1: the local search makes no evaluation, no solution is stored and no stage 2 work happens; it never succeeds.", "quantifier": "every problem, solver, foreign configuration, seed, thread schedule and environment", "why_tests_cant": "ranges over every environment and every pair of solver and configuration", "anchors": ["src/oqnlp.rs: run", "src/local_solver/runner.rs: solve_with_tracking"]}
{"id": "C82", "title": "With COBYLA failing evaluations inside local searches do not fail the run", "statement": "If COBYLA is configured and its library always returns, no local search of the run fails, and the run never returns a local solver error, although the user's objective may fail at any point visited inside the searches.", "quantifier": "every problem, failing objective, environment and library behaviour, fresh and resumed runs", "why_tests_cant": "ranges over every pattern of failing evaluations and every solver behaviour", "anchors": ["src/local_solver/runner.rs: solve_cobyla", "src/oqnlp.rs: run"]}
{"id": "C83", "title": "Returned solutions carry the objective values of their points", "statement": "If the solver libraries report the value they obtained at the point they return, every solution returned by the run has objective(point) as its objective value; with COBYLA a point at which the objective fails may be returned with the value +inf.", "quantifier": "every problem, environment, honest library, fresh and resumed run", "why_tests_cant": "ranges over every history of local searches and filters", "anchors": ["src/oqnlp.rs: run, process_local_solution", "src/local_solver/runner.rs: solve_with_tracking"]}
{"id": "C84", "title": "The observer's stage 2 evaluation count is the number of objective calls", "statement": "After a successful run with a stage 2 observer, sequential or parallel, the reported number of function evaluations grew by exactly the number of calls of the user's objective made during stage 2, by the optimizer and inside the local searches; in a parallel run that stopped at the target it never exceeds that number.", "quantifier": "every problem, environment, batch size and library behaviour", "why_tests_cant": "ranges over every number and pattern of evaluations of the solvers", "anchors": ["src/observers/stage2.rs: add_function_evaluations, Stage2State", "src/oqnlp.rs: run", "src/local_solver/runner.rs: solve_with_tracking"]}
{"id": "C85", "title": "Callbacks are shown the current iteration, counts, set size and best solution", "statement": "Every stage 2 callback of a successful run with an observer told about stage 2 is shown its own iteration, one local call per local solution processed so far and one improved call per solution reported as added, the size of the solution set at that moment, a best objective not above that of the best solution in the set, and a best solution that was the best of the set at some time.", "quantifier": "every problem, environment, schedule, batch size, callback frequency, fresh and resumed runs", "why_tests_cant": "ranges over every history of local searches and every moment at which a callback is called", "anchors": ["src/oqnlp.rs: run, process_batch_sequential, process_batch_parallel", "src/observers/mod.rs: Observer, invoke_callback, should_invoke_callback", "src/observers/stage2.rs: Stage2State"]}
{"id": "C86", "title": "Callbacks are shown the threshold and unchanged cycles in force", "statement": "When a stage 2 callback is called, the threshold value and the number of unchanged cycles it is shown are those the optimizer has at that moment.", "quantifier": "every problem, environment, schedule, batch size and callback frequency, fresh and resumed runs", "why_tests_cant": "ranges over every history of accepted and rejected points", "anchors": ["src/oqnlp.rs: process_batch_sequential, process_batch_parallel, adjust_threshold", "src/observers/stage2.rs: threshold_value, unchanged_cycles"]}
{"id": "C87", "title": "Every distinct local solution near the best is returned", "statement": "Every admissible local solution found by a run whose objective is within tolerance of the first returned solution is returned, unless a returned solution lies within distance_factor of it.", "quantifier": "every problem, environment, schedule and history of local solutions, all tolerances", "why_tests_cant": "ranges over every order in which the local solutions are found", "anchors": ["src/oqnlp.rs: process_local_solution, is_duplicate_in_set, with_tolerance", "src/types.rs: SolutionSet"]}
{"id": "C88", "title": "A time limit only cuts a run short, at the next batch", "statement": "Setting max_time changes nothing while the clock stays within the limit. Once the clock has exceeded the limit no further batch of stage 2 candidates is worked on: the run has done what the unlimited run does up to that batch, writes at most the final checkpoint, and returns the solutions found so far. When the target is not reached exactly the candidates of the batches before the first late look at the clock are examined. A limit that is not a number never stops a run.", "quantifier": "every problem, environment, clock, limit, batch size, fresh and resumed runs", "why_tests_cant": "ranges over every sequence of clock readings and every run history", "anchors": ["src/oqnlp.rs: max_time, run"]}
{"id": "C89", "title": "Building with checkpointing changes nothing unless it is used", "statement": "Where with_checkpointing is not called, run does the same in a build with the checkpointing feature and in one without it: same result, same local searches, callbacks and final state.", "quantifier": "every problem, parameters, seed, environment and schedule, debug and release builds", "why_tests_cant": "the two builds cannot be run in one test binary, and the claim ranges over all seeds and histories", "anchors": ["src/oqnlp.rs: run, process_batch_sequential, process_batch_parallel", "Cargo.toml: features"]}
{"id": "C90", "title": "Running an optimizer again keeps what earlier runs found", "statement": "After any number of runs of one optimizer that do not resume from a checkpoint, successful or not, a further run returns a solution set made of the local solutions of all runs together, by the same rules as for a single run; its first member is never worse than that of an earlier returned set; every solution ever recorded is one that a local search of one of the runs returned.", "quantifier": "every problem, every sequence of runs, each with its own environment, outcome and errors", "why_tests_cant": "ranges over every number of runs and every way the earlier ones ended", "anchors": ["src/oqnlp.rs: run, process_local_solution, solution_set"]}
{"id": "C91", "title": "Running an optimizer again examines the same candidates", "statement": "In the same environment every further run of an optimizer that does not resume examines the same stage 2 candidates under the same iteration numbers as the first one, except that one of them may stop earlier.", "quantifier": "every problem, environment and sequence of earlier runs", "why_tests_cant": "ranges over every history of earlier runs, including failed and interrupted ones", "anchors": ["src/oqnlp.rs: run, current_iteration, current_seed"]}
{"id": "C92", "title": "A checkpoint's number covers every candidate before it", "statement": "When a checkpoint with iteration number i has been written, every local search that the run starts afterwards belongs to an iteration after i, so a run resumed from it after a crash, which starts at i, loses none of them.", "quantifier": "every problem, environment, schedule, batch size, save frequency and crash point, fresh and resumed runs", "why_tests_cant": "ranges over every crash point and every split of a batch into rejected and searched candidates", "anchors": ["src/oqnlp.rs: process_batch_parallel, process_batch_sequential, maybe_save_checkpoint, run (start_iter)"]}
{"id": "C93", "title": "A restart continues from the checkpoint written last", "statement": "A program that builds an optimizer with automatic resuming and is started again after every interruption finds, at each start, the checkpoint that was written last before it, and none if none was written.", "quantifier": "every problem, every number of interrupted runs, every crash point between two events, every environment and schedule in each run, every order in which the directory lists its files", "why_tests_cant": "ranges over every sequence of crashes and restarts", "anchors": ["src/checkpoint.rs: save_checkpoint, load_latest_checkpoint, checkpoint_exists, find_latest_checkpoint", "src/oqnlp.rs: run, try_resume_from_checkpoint, maybe_save_checkpoint"]}
{"id": "C94", "title": "Interruptions lose only what was found after the last checkpoint", "statement": "However often a checkpointing program is interrupted and restarted, the set finally returned is made, by the rules for a single run, of the local solutions found before the last checkpoint of each interrupted run together with those of the last run; its first member is the best solution of any checkpoint ever written or has a strictly smaller objective.", "quantifier": "every problem, every number of interrupted runs, every crash point between two events, every environment and schedule in each run", "why_tests_cant": "ranges over every sequence of crashes and restarts and every run history between them", "anchors": ["src/oqnlp.rs: run, create_checkpoint, restore_from_checkpoint, process_local_solution", "src/checkpoint.rs: save_checkpoint, load_latest_checkpoint"]}
{"id": "C95", "title": "Stage 2 examines each reference point at most once, in order, in every mode", "statement": "A fresh run, parallel or not and with any batch size, examines the points of the shuffled reference set in order, each once and numbered from zero; a successful run that does not reach the target examines the first min(iterations, |reference set|) of them, or, when the j-th test of the time limit is the first to find it exceeded, those of the first j batches.", "quantifier": "every problem, seed, batch size, number of threads, clock and execution", "why_tests_cant": "ranges over every batch size, schedule and clock", "anchors": ["src/oqnlp.rs: run, process_batch_parallel, process_batch_sequential, effective_batch_size"]}
{"id": "C96", "title": "Whether a point is searched depends only on earlier batches", "statement": "In every mode and for every batch size a reference point is searched exactly when its merit value is <= the threshold in force and it is farther than distance_factor from every solution recorded before, where threshold and solutions are those left by the earlier batches: at that moment exactly the points of earlier batches that passed have been searched and all solutions found there are recorded. Searches and recordings follow the order of examination, and a successful run that does not reach the target has searched every point that passed and recorded every solution.", "quantifier": "every problem, seed, batch size, number of threads and schedule, fresh and resumed runs", "why_tests_cant": "ranges over every batch size, schedule and history of local solutions", "anchors": ["src/oqnlp.rs: process_batch_parallel, process_batch_sequential, should_start_local, process_local_solution"]}
{"id": "C97", "title": "Threshold dynamics in every mode", "statement": "In every mode the merit threshold changes only when a solution is recorded (to the merit value of its starting point, or to its objective if it is the first or a new best one) and when it is relaxed; it is relaxed by threshold_factor * (1 + |threshold|) exactly with the rejection that completes wait_cycle rejections since the last relaxation, no batch is begun with a full count, and every checkpoint holds the threshold in force.", "quantifier": "every problem, seed, batch size, number of threads and schedule, fresh and resumed runs", "why_tests_cant": "ranges over every batch size, schedule and split of the batches into rejected and searched points", "anchors": ["src/oqnlp.rs: process_batch_parallel, process_batch_sequential, adjust_threshold, create_checkpoint"]}
{"id": "C98", "title": "Target objective stops the search in every mode", "statement": "In every mode, once a recorded solution makes the best objective <= target (and in bounds when exclude_out_of_bounds is set), nothing more is examined, searched or recorded, and run returns a set whose best objective is <= target, unless writing a checkpoint fails or a callback has frequency zero; without target and time limit a successful run examines all its iterations.", "quantifier": "every problem, solver behaviour, target, batch size, number of threads and schedule, fresh and resumed runs", "why_tests_cant": "ranges over every batch size, schedule and history of local solutions", "anchors": ["src/oqnlp.rs: process_batch_parallel, process_batch_sequential, target_objective_reached, run"]}
{"id": "C99", "title": "A checkpoint that cannot be read stops the run before any work", "statement": "With auto_resume, a checkpoint that exists but cannot be loaded makes run return the error of loading it: nothing is evaluated, searched, written or reported, the optimizer keeps its state, and the directory is left as it is, so every later start fails in the same way. resume_with_modified_params and resume_from_checkpoint_with_params report the error too. Without auto_resume the checkpoint has no influence.", "quantifier": "every optimizer, every unreadable checkpoint, any number of later starts", "why_tests_cant": "ranges over all damaged files and all sequences of restarts", "anchors": ["src/oqnlp.rs: run, try_resume_from_checkpoint, resume_with_modified_params, resume_from_checkpoint_with_params", "src/checkpoint.rs: load_latest_checkpoint"]}
{"id": "C100", "title": "A program killed at any moment can be started again", "statement": "A program that checkpoints with auto_resume and is killed at any moment, also while a checkpoint is being written, continues when it is started again: from the last complete checkpoint, or afresh if there is none.", "quantifier": "every program, every history of restarts, every kill point including each byte of a write", "why_tests_cant": "ranges over all crash points and histories", "anchors": ["src/checkpoint.rs: save_checkpoint, load_latest_checkpoint, find_latest_checkpoint", "src/oqnlp.rs: try_resume_from_checkpoint, run"]}
{"id": "C101", "title": "Checkpoints carry the reference set and the seed unchanged", "statement": "Every checkpoint a run writes holds exactly the reference set that scatter search generated, in the order of its generation, and the points examined so far are the first ones of its shuffle; every checkpoint holds the seed of its iteration, (seed + iteration) mod 2^64; resumed runs pass the reference set on, so that over any number of interruptions and restarts all checkpoints hold the same reference set.", "quantifier": "every problem, mode, batch size and schedule, every interruption point and number of restarts", "why_tests_cant": "ranges over all schedules, crash points and histories of restarts", "anchors": ["src/oqnlp.rs: run, create_checkpoint, restore_from_checkpoint, process_batch_parallel, process_batch_sequential"]}
{"id": "C102", "title": "A program that has finished can be started again without further work", "statement": "A program with auto_resume whose run has ended normally, when it is started again with the checkpoint it left, does no further work and returns the same solution set.", "quantifier": "every problem, mode, batch size and number of threads", "why_tests_cant": "ranges over all complete runs and their final checkpoints", "anchors": ["src/oqnlp.rs: run, try_resume_from_checkpoint, create_checkpoint, maybe_save_checkpoint"]}
{"id": "C103", "title": "Distances are decided as in exact arithmetic, up to rounding", "statement": "The distance test decides about the Euclidean distance of the points: for points with n finite coordinates and any finite distance factor d, a point accepted by the distance filter has squared distance at least (1 - (n+9)/2^53) d^2 - (n+1)/2^1074 in exact arithmetic from every recorded solution, and a rejected one is, within the same relative and absolute error, at most d away from some recorded solution. The same holds for the duplicate test of the solution set. So any two solutions a run returns, and every starting point of a local search after the first and any solution recorded in earlier batches, are at least the distance factor apart up to rounding.", "quantifier": "every dimension, all finite points and factors, every history of recorded solutions, every run, mode and batch size, fresh and resumed", "why_tests_cant": "ranges over all doubles, dimensions and runs; the accumulated rounding error of a sum of n terms cannot be sampled", "anchors": ["src/filters.rs: DistanceFilter::check, euclidean_distance_squared", "src/oqnlp.rs: is_duplicate_in_set, process_local_solution, process_batch_sequential, process_batch_parallel"]}
{"id": "C104", "title": "Verbose output accounts for the returned solutions and the threshold", "statement": "With verbose output enabled, whoever reads the output knows the solution set: starting from nothing (or, after a resume, from the checkpoint's set), adding each announced new solution and starting over at each announced new best one gives exactly the set run returns; each printed solution set size is the size at that moment; and each line `Adjusting threshold from a to b` is printed for one relaxation of the threshold, a being the threshold before and b the threshold after it.", "quantifier": "every problem, mode, batch size and schedule, fresh and resumed runs", "why_tests_cant": "ranges over all runs and all interleavings of solutions, relaxations and batches", "anchors": ["src/oqnlp.rs: verbose, process_local_solution, process_batch_sequential, process_batch_parallel, adjust_threshold"]}
{"id": "C105", "title": "Returned objectives are within tolerance in exact arithmetic, up to rounding", "statement": "For a finite non-negative absolute tolerance and a relative tolerance between 0 and 1, every solution in the returned set whose objective value f is finite differs from the first member's finite objective value f1 by at most max(abs_tol, rel_tol max(|f|, |f1|)) in exact arithmetic, up to a relative error of 2^-51 and an absolute one of 2^-1074.", "quantifier": "every problem, mode and run, fresh and resumed; all finite objective values and tolerances in the range", "why_tests_cant": "ranges over all doubles and all runs", "anchors": ["src/oqnlp.rs: process_local_solution, with_tolerance, run"]}
{"id": "C106", "title": "With argmin solvers failing and missing evaluations are reported", "statement": "If run succeeds with L-BFGS, Nelder-Mead, steepest descent, trust region or Newton-CG, every objective, gradient and Hessian evaluation made inside its local searches succeeded. A local search ends at the first evaluation that fails and reports RunFailed. So a problem that keeps the default gradient or hessian method, with a solver that asks for it in the first local search, makes run fail with LocalSolverError RunFailed and no solution is stored.", "quantifier": "every problem, every behaviour of the solver crate, every configuration, fresh and resumed runs, every mode and schedule", "why_tests_cant": "ranges over all interaction sequences between a solver and the user's functions, and all runs", "anchors": ["src/problem.rs: gradient, hessian", "src/local_solver/runner.rs: solve_with_tracking, solve_lbfgs, solve_nelder_mead, solve_steepestdescent, solve_trust_region, solve_newton_cg", "src/oqnlp.rs: run"]}
{"id": "C107", "title": "The built-in callbacks print what they document", "statement": "During a run the default callback prints one message at each of the documented moments of stage 1 (start of the scatter search, initialization with the number of initial points, diversification, intensification with the number of accepted trial points, end of the scatter search, end of the local optimization) and then, for each iteration it is invoked for, one line with that iteration's number, the best objective and the point it is attained at, the size of the solution set, the threshold, the local searches and the evaluations so far. The stage-1 and stage-2 callbacks print the messages of their stage. In a resumed run the lines of stage 2 are printed.", "quantifier": "every problem, mode, batch size, frequency and schedule, fresh and resumed runs", "why_tests_cant": "ranges over all runs and interleavings of callbacks; output to stderr is not captured by tests", "anchors": ["src/observers/mod.rs: with_default_callback, with_stage1_callback, with_stage2_callback, invoke_callback", "src/oqnlp.rs: run, process_batch_sequential, process_batch_parallel"]}
{"id": "C108", "title": "Trial points are the documented combinations of the best reference points", "statement": "Scatter search generates, for every pair a, b of the best k = clamp(floor(sqrt(size)), 2, size) reference points, exactly six trial points: a/4 + 3b/4, a/2 + b/2, 3a/4 + b/4, 5a/4 - b/4, and twice the middle (a + b)/2 with each coordinate moved by at most a tenth of the range of its variable; each is projected onto the bounds. This holds coordinate by coordinate in exact arithmetic, up to a relative error of 2^-50 of the operands and an absolute one of 2^-1073.", "quantifier": "every problem with finite ordered bounds, all reference points within them, every dimension, every random stream", "why_tests_cant": "ranges over all doubles and all streams; tests check that points are within bounds, not which points they are", "anchors": ["src/scatter_search.rs: generate_trial_points, combine_points, apply_bounds"]}
{"id": "C109", "title": "Trial points are kept exactly if they are far enough in exact arithmetic, up to rounding", "statement": "Let t be the average of the squared distances of the first k neighbours of the reference set, in exact arithmetic. A trial point that enters the reference set has squared distance at least t/10 from each of the first five reference points, up to a relative error of (2n+k+19)/2^53 and an absolute one of (n+1)/2^1074. A feasible trial point whose objective is below the last one of the reference set is not lost in favour of a worse point, unless its squared distance to one of these five points is at most t/10 up to the same relative error.", "quantifier": "every problem with finite bounds, every dimension, population size and schedule of the parallel sum, sequential and parallel", "why_tests_cant": "ranges over all doubles, dimensions and summation orders; the accumulated rounding error cannot be sampled", "anchors": ["src/scatter_search.rs: update_reference_set, generate_trial_points", "src/filters.rs: euclidean_distance_squared"]}
{"id": "C110", "title": "Checkpoints record the elapsed time, and the time limit is one in real time", "statement": "The elapsed time in a checkpoint is the time in seconds since the optimization began, up to a relative error of 2^-51, and never decreases from one checkpoint to the next, also over interruptions and restarts. It has no influence on a resumed run. A time limit that is not reached by the beginning of any batch changes neither result nor events; if the k-th batch of stage 2 would begin after the limit, only the earlier batches are worked on.", "quantifier": "every problem, mode, batch size and schedule, every clock with nanosecond resolution and durations below 2^52 seconds, fresh and resumed runs", "why_tests_cant": "ranges over all clocks and all runs; tests do not control the clock", "anchors": ["src/oqnlp.rs: run, create_checkpoint, max_time", "src/types.rs: OQNLPCheckpoint"]}
{"id": "C111", "title": "What a resumed run does is determined by the checkpoint and the live settings", "statement": "Two optimizers with the same problem, distance filter settings, local solver, time limit, checkpoint settings and observer do the same when they resume from the same checkpoint: same result, same candidates, local searches, checkpoints and callbacks. The parameters, target objective, tolerances, exclusion of points out of bounds, batch size, parallel flag, custom points and earlier findings of the resuming optimizer have no influence; the time limit, problem, checkpoint settings and observer are its own.", "quantifier": "every problem, checkpoint, pair of optimizers, mode, batch size and schedule", "why_tests_cant": "ranges over all pairs of configurations and all resumed runs", "anchors": ["src/oqnlp.rs: run, try_resume_from_checkpoint, restore_from_checkpoint, target_objective, with_tolerance, exclude_out_of_bounds, batch_iterations, parallel, with_points"]}
{"id": "C112", "title": "A trial stored with store_trial takes part in the search", "statement": "A point stored with ScatterSearch::store_trial becomes a member of the reference set: from then on best_solution returns it if its objective is the lowest, it is combined with other points if it is among the best ones, and it stays in the reference set until a better point displaces it.", "quantifier": "every problem, every state reached by the public steps of the scatter search, every point", "why_tests_cant": "ranges over all states of the search and all points", "anchors": ["src/scatter_search.rs: store_trial, best_solution, generate_trial_points, update_reference_set, initialize_reference_set, run"]}
{"id": "C113", "title": "Verbose output tells the course of a run and where its solutions come from", "statement": "verbose changes nothing a run does. The messages follow the run: a fresh one announces stage 1, its local solution, stage 2; a resumed one the iteration and the number of solutions of its checkpoint, then stage 2. After that at most one reason to stop is given: the time limit, only if it has passed, or the target, exactly if the returned set meets it. Lines about the solution set, threshold and checkpoints appear in the order of the events. Each solution that enters the set in stage 2 is announced with its iteration, objective and the point its local search started from.", "quantifier": "every problem, mode, batch size, schedule, clock and local solver, fresh and resumed runs, successful or not", "why_tests_cant": "ranges over all runs and schedules; tests do not read the output", "anchors": ["src/oqnlp.rs: run, verbose, process_local_solution, process_iteration, process_batch_parallel, try_resume_from_checkpoint"]}
{"id": "C114", "title": "The message of an error tells what failed", "statement": "Two errors of the API with the same message are of the same kind, hold the same numbers and the same cause; only kinds of NaN cannot be told apart. What the messages say is true: the number of candidates of NoFeasibleSolution is the number of candidates examined, a failed local search is reported with its solver and a failed evaluation with its stage and cause, and a limit named in the message is the limit that is checked.", "quantifier": "every error of OQNLP, every way of writing numbers that can be read back; every run", "why_tests_cant": "ranges over all errors and numbers; tests compare single messages", "anchors": ["src/oqnlp.rs: OQNLPError, new, run, process_iteration, process_batch_parallel", "src/scatter_search.rs: ScatterSearchError", "src/local_solver/runner.rs: LocalSolverError", "src/checkpoint.rs: CheckpointError", "src/filters.rs: FiltersErrors"]}
{"id": "C115", "title": "Progress bars show how far a run is and do not influence it", "statement": "With the feature progress_bar a run has the same result, final state and events as without it. The bar of stage 1 names the last phase completed and never shows more steps than its total. The bar of stage 2 has as many steps as there are iterations; it begins at the iteration of the checkpoint in a resumed run, at 0 otherwise, and moves forward with every iteration.", "quantifier": "every problem, mode, batch size, schedule and local solver, every terminal, fresh and resumed runs, successful or not", "why_tests_cant": "ranges over all runs and terminals; tests run without the feature or do not read the bars", "anchors": ["src/scatter_search.rs: run, initialize_reference_set", "src/oqnlp.rs: run"]}
{"id": "C116", "title": "Resuming with other parameters says truthfully what was taken over", "statement": "The output of resume_with_modified_params and resume_from_checkpoint_with_params does not influence them. Nothing is printed unless a checkpoint is taken over. A population smaller than that of the checkpoint gives a warning on stderr, also without verbose. With verbose a change of the population gives the true number of points of the reference set before and after, and a change of the number of iterations gives both numbers.", "quantifier": "every optimizer, checkpoint, file and new parameter set, with and without verbose", "why_tests_cant": "ranges over all checkpoints and parameters; tests do not read the output", "anchors": ["src/oqnlp.rs: resume_with_modified_params, resume_from_checkpoint_with_params, expand_reference_set"]}
{"id": "C117", "title": "What Python prints about results and observers is what they hold", "statement": "repr and str of a solution and repr of a solution set determine points and objectives, up to kinds of NaN. str of a solution set gives the number of solutions, the lowest objective and then every solution with its number, objective and point, in the order of the set, and nothing else. str of an observer after optimize shows the final state of each tracked stage: the number of solutions returned and of local searches run.", "quantifier": "every solution and solution set, every way of writing numbers that can be read back; every optimization", "why_tests_cant": "ranges over all doubles, sets and runs; tests look for substrings of single texts", "anchors": ["python/src/lib.rs: PyLocalSolution.__repr__, PyLocalSolution.__str__, PySolutionSet.__repr__, PySolutionSet.__str__", "python/src/observers.rs: PyObserver.__str__"]}
{"id": "C118", "title": "The message of a failed evaluation tells its cause", "statement": "Two EvaluationErrors with the same message are of the same kind with the same reason and the same numbers, up to kinds of NaN. If the objective fails during a run, the message of the error returned by the run, or of the ValueError of the Python function optimize, ends with the message of the error the objective returned; for a Python objective that is the text of the exception.", "quantifier": "every evaluation error, every problem, mode, schedule and way of writing numbers that can be read back", "why_tests_cant": "ranges over all errors, reasons, doubles and runs; tests compare single messages", "anchors": ["src/types.rs: EvaluationError", "src/scatter_search.rs: ScatterSearchError", "src/oqnlp.rs: OQNLPError, run, process_iteration, process_batch_parallel", "python/src/lib.rs: PyProblem::objective, optimize"]}
{"id": "C119", "title": "The text of a checkpoint tells its contents", "statement": "Two checkpoints with the same text have the same timestamp, iteration, unchanged cycles, sizes of reference set, distance filter and solution set, seeds, population size, iterations, wait cycle, factors, solver and exclusion flag, and agree in the printed digits of threshold, elapsed time, tolerances and target. The best objective appears exactly if there is a solution, and is the lowest of the set. A checkpoint loaded from its file has the text of the one saved. The text of the last checkpoint of a successful run gives the number of solutions returned and their lowest objective.", "quantifier": "every checkpoint, every way of writing numbers that can be read back, every run in every mode", "why_tests_cant": "ranges over all checkpoints and runs; tests look for substrings of single texts", "anchors": ["src/types.rs: OQNLPCheckpoint, Display for OQNLPCheckpoint, LocalSolverType", "src/checkpoint.rs: save_checkpoint, load_latest_checkpoint", "src/oqnlp.rs: create_checkpoint, run"]}
{"id": "C120", "title": "Python configurations can be created with any of their arguments", "statement": "Each configuration class and builder function of the Python module accepts any subset of its arguments: an argument given is kept as it is, one not given has the default that the stub file states. A line search may be given as PyLineSearchParams, MoreThuente or HagerZhang; any other object raises TypeError.", "quantifier": "every class and builder function, every subset of arguments and all their values", "why_tests_cant": "ranges over all subsets of arguments and all doubles; tests make single calls", "anchors": ["python/src/builders.rs: PyHagerZhang, hagerzhang, PyMoreThuente, morethuente, PyLBFGS, lbfgs, PyNelderMead, neldermead, PySteepestDescent, steepestdescent, PyNewtonCG, newtoncg, PyTrustRegion, trustregion, PyCOBYLA, cobyla", "python/pyglobalsearch.pyi: builders"]}
{"id": "C121", "title": "The text of an observer state tells its counters", "statement": "repr and str of the states of stage 1 and stage 2 determine all sizes and counters and the substage, and the printed digits of objectives and time; str names every number by its label. After optimize with a new observer, str of the state of stage 2 gives the number of solutions returned and, in sequential mode or if the target was not reached, the number of local searches run.", "quantifier": "every observer state, every way of writing numbers without commas; every optimization", "why_tests_cant": "ranges over all states and runs; tests look for substrings of single texts", "anchors": ["python/src/observers.rs: PyStage1State.__repr__, PyStage1State.__str__, PyStage2State.__repr__, PyStage2State.__str__", "src/observers/stage1.rs: Stage1State", "src/observers/stage2.rs: Stage2State"]}
{"id": "C122", "title": "A copy of a configuration or observer is the same", "statement": "A clone of a LocalSolverConfig or an Observer has all settings, counts and the callback of the original. The debug text of a LocalSolverConfig tells the solver and, for COBYLA, every setting under its name, up to kinds of NaN.", "quantifier": "every configuration and observer, every way of writing numbers that can be read back", "why_tests_cant": "ranges over all configurations and doubles; tests compare single copies", "anchors": ["src/local_solver/builders.rs: Clone for LocalSolverConfig, Debug for LocalSolverConfig", "src/observers/mod.rs: Clone for Observer"]}
{"id": "C123", "title": "The names of the Python module are exactly those it is meant to export", "statement": "Importing `pyglobalsearch` does not fail on a missing alias. The module then has exactly the names `optimize`, `PyOQNLPParams`, `PyProblem`, `PyLocalSolution`, `PySolutionSet`, `builders` and `observers`. The submodule `builders` has exactly the solver and line search classes, their functions and their short names, and `observers` exactly the four observer classes with and without the prefix `Py`. Every alias stands for the class it is named after. The names of the type stub work where they agree with these tables; `builders.steepest_descent`, `PyLineSearchMethod` and the top-level configuration and observer classes of the stub do not exist.", "quantifier": "for every name and every definition it could stand for", "why_tests_cant": "Tests import the names they use; that no further name exists and that no alias is crossed concerns all names.", "anchors": ["python/src/lib.rs:1042-1060", "python/src/builders.rs:1049-1091", "python/src/observers.rs:613-627", "python/pyglobalsearch.pyi:443-1600"]}
{"id": "C124", "title": "A Python observer has the settings chosen by its calls", "statement": "However the calls are ordered, a stage of a Python observer is tracked iff its tracking was turned on, timing and filtering are on iff turned on, and mode and frequency are the last ones set. The calls can be made one by one or, as the documentation of optimize shows, chained in one expression.", "quantifier": "every sequence of calls", "why_tests_cant": "ranges over all sequences of calls; tests make each call on its own", "anchors": ["python/src/observers.rs: with_stage1_tracking, with_stage2_tracking, with_timing, with_mode, with_callback_frequency, unique_updates", "python/src/lib.rs: documentation of optimize"]}
{"id": "C125", "title": "The arguments of the Python optimize are bound as documented", "statement": "The optional arguments of optimize can be given by position, by name in any order, as None or not at all; optimize then uses exactly those given. Too many arguments, unknown names and arguments given twice raise TypeError. Leaving out the solver, the seed or a flag is the same as passing the default the type stub shows. The order of the positional arguments is that of the type stub.", "quantifier": "every set of arguments, every split into positional and named ones, every order of the named ones", "why_tests_cant": "ranges over all calls; tests pass a few arguments by name", "anchors": ["python/src/lib.rs: optimize", "python/pyglobalsearch.pyi: optimize"]}
{"id": "C126", "title": "A Python program reads the metrics of its run from the observer", "statement": "The states of a Python observer have exactly the documented attributes, each with the value it is named after. A program that makes an observer, turns on stage 2 among any other calls not restricting it to stage 1, and passes it to optimize reads from stage2() the number of solutions returned and, in sequential mode or if the target was not reached, the numbers of local searches and evaluations. Before that the properties of the observer show what is tracked, whether timing is on, and no elapsed time.", "quantifier": "every state and name, every sequence of calls, every successful optimization", "why_tests_cant": "ranges over all states, names and sequences of calls; tests read single attributes", "anchors": ["python/src/observers.rs: getters of PyStage1State, PyStage2State and PyObserver"]}
{"id": "C127", "title": "What the Python function optimize accepts, returns and raises", "statement": "optimize accepts its arguments exactly when the solver name is known, the configuration object (if any) belongs to that solver, the population has at least 4 points, there are no more iterations than points, the threshold factor is not at most zero, the distance factor is not negative, and all starting points have the dimension of the problem and no coordinate outside the bounds; otherwise it raises ValueError before anything runs. With accepted arguments it returns exactly the solutions of the Rust run, raises ValueError for each error of the run, and panics only if the run panics. A returned set is not empty, has a best solution, all its points have the dimension of the problem, its objectives are within the given tolerances of the first, its points are pairwise apart by the distance factor, every solution was reported by one of at most 1 + iterations local searches, with exclusion no coordinate is outside its bounds, and if the solvers report the values they obtained each objective belongs to its point.", "quantifier": "all arguments, problems and environments", "why_tests_cant": "ranges over all arguments and all runs; tests check single calls", "anchors": ["python/src/lib.rs: optimize"]}
{"id": "C128", "title": "The functions of a Python problem reach the solvers, and their failures the caller", "statement": "The values, gradients, Hessians, bounds and constraints of a Python problem reach the solvers unchanged if their dimensions are right, and are refused otherwise; an exception is reported as invalid input and a missing derivative as missing. If optimize with an argmin solver returns, no function called in a local search was missing or raised. If the solver asks for a derivative the problem does not have, optimize raises ValueError and leaves the observer as it was.", "quantifier": "all Python problems, points, arguments, solver libraries and runs", "why_tests_cant": "ranges over all functions a user may write and all runs; tests use single problems with correct functions", "anchors": ["python/src/lib.rs: impl Problem for PyProblem"]}
{"id": "C129", "title": "What a Python program does with its results stays where it was done", "statement": "A solution set never changes, whatever a program does with the solutions and points it got from it. A solution has in each attribute the value last assigned to that attribute of that very object, x() and fun() agree with the attributes, and nothing done to other objects is seen in it. A list got as the point of a solution is the program's own. Indexing, best_solution, iteration and construction give new objects with the values of the ones they were made from.", "quantifier": "all programs (sequences of reads, assignments, list edits and constructions) on any number of sets, solutions and lists", "why_tests_cant": "ranges over all programs and aliasing between objects; tests read single attributes", "anchors": ["python/src/lib.rs: PyLocalSolution, PySolutionSet, PySolutionSetIterator"]}
{"id": "C130", "title": "A run without parallelism is repeatable", "statement": "A run that starts or continues with parallelism off gives the same result, the same sequence of events and the same final state for every number of threads and every schedule, whether it succeeds or fails. The same holds for the Python optimize unless parallel=True is passed, including what the observer shows.", "quantifier": "all problems, parameters, local solvers, checkpoints, clocks, numbers of threads and schedules", "why_tests_cant": "ranges over all thread counts and schedules; tests run on one machine", "anchors": ["src/oqnlp.rs: OQNLP::run, process_batch_sequential", "src/scatter_search.rs: ScatterSearch::run", "python/src/lib.rs: optimize"]}
