{
 "C01": [
  "proved",
  ""
 ],
 "C02": [
  "proved",
  ""
 ],
 "C03": [
  "proved",
  "Strictness is proved for factors of at least f64::EPSILON; the witnesses show that tiny factors and an infinite threshold are stuck."
 ],
 "C04": [
  "proved",
  "For all sets; the numeric reading holds unless some objective is a NaN with the sign bit set (C04_le_numbers), and then fails (C04_negative_nan)."
 ],
 "C05": [
  "proved",
  "Fresh and resumed runs; resumed runs assume the checkpoint held a good set."
 ],
 "C06": [
  "proved",
  ""
 ],
 "C07": [
  "partial",
  "Proved exactly for finite objectives and rel_tol <= 1/2 with any non-negative abs_tol; the bound is sharp: false for rel_tol = 1/2 + 2^-52 through rounding (C07_lost_rounding) and for 1.5 in any arithmetic (C07_lost_large_rel_tol)."
 ],
 "C08": [
  "partial",
  "Proved for finite objectives and all non-negative tolerances; a NaN or +inf first solution is never replaced (C08_nan_head_kept, C08_inf_head_kept)."
 ],
 "C09": [
  "proved",
  ""
 ],
 "C10": [
  "partial",
  "Proved for solutions without NaN coordinates; a NaN coordinate passes the bounds check (C10_nan_returned)."
 ],
 "C11": [
  "partial",
  "Exact acceptance condition proved; `accepted iff in the documented domain` holds for numbers (no NaN), a NaN factor is accepted (C11_nan_accepted) and population size 3 is rejected (C11_three_rejected)."
 ],
 "C12": [
  "partial",
  "Exact acceptance condition proved; NaN coordinates are accepted (C12_nan_accepted)."
 ],
 "C13": [
  "partial",
  "Exact acceptance condition proved; NaN bounds are accepted (C13_nan_bounds_accepted)."
 ],
 "C14": [
  "partial",
  "Proved for finite ordered bounds whose width and sum do not overflow; the midpoint of bounds with overflowing sum is outside (C14_midpoint_overflow)."
 ],
 "C15": [
  "proved",
  ""
 ],
 "C16": [
  "proved",
  ""
 ],
 "C17": [
  "proved",
  ""
 ],
 "C18": [
  "proved",
  ""
 ],
 "C19": [
  "proved",
  ""
 ],
 "C20": [
  "proved",
  ""
 ],
 "C21": [
  "partial",
  "Proved for the parallel mode and for the sequential mode when no distance is below the 1e-14 cut-off (C21_sequential_not_greedy)."
 ],
 "C22": [
  "proved",
  ""
 ],
 "C23": [
  "proved",
  "The count and the pairs are stated for reference sets of fewer than 2^52 points: beyond that (not reachable in memory) the floating-point square root can exceed the integer one (F64.toUsize_sqrt_ofNat_large)."
 ],
 "C24": [
  "partial",
  "Everything except the floating-point sum of sampled distances is schedule-independent, up to which of several failing evaluations is reported; full independence for reference sets of at most eight points; C24_sum_order_matters and C24_error_depends_on_order are the counterexamples."
 ],
 "C25": [
  "partial",
  "Proved when no non-zero distance is below 1e-14 and the sums agree (automatic up to eight points); C25_modes_differ is the counterexample."
 ],
 "C26": [
  "proved",
  "Sequential fresh runs: examined points are the planned prefix in index order, all of them unless the time limit or target intervenes. C95 covers the other modes."
 ],
 "C27": [
  "proved",
  "Search iff merit and distance tests pass against the found solutions, for fresh and resumed sequential runs. C96 covers the other modes."
 ],
 "C28": [
  "partial",
  "Resumed runs evaluate the examined point itself; fresh runs use the value cached at the same position of the unshuffled set. C28_violated shows that value can belong to another point."
 ],
 "C29": [
  "partial",
  "Threshold changes only by searches and relaxations, at the documented times; C29_violated shows a search may raise the threshold, C29_search_lowers_partial gives the condition under which it does not."
 ],
 "C30": [
  "proved",
  "C98 covers the other modes."
 ],
 "C31": [
  "partial",
  "Errors are attributed to failures of the objective, constraints or local solver at points inside the bounds; C31_trial_failure_ignored shows the converse fails: an objective failure at a stage-1 trial point is dropped and the run succeeds."
 ],
 "C32": [
  "proved",
  ""
 ],
 "C33": [
  "proved",
  ""
 ],
 "C34": [
  "proved",
  "Result, final state and trace do not depend on completion order when no search of the batch fails; when searches fail, both runs fail with equal state, but which of several different failures is reported depends on the order (C34_error_depends_on_order)."
 ],
 "C35": [
  "partial",
  "Proved for the solution of stage 1 and for solutions of earlier batches, for every batch size; C35_violated shows a search started near a solution found by an earlier iteration of the same batch."
 ],
 "C36": [
  "partial",
  "Thread count is irrelevant when the batch size is set, parallelism is off or fewer than four iterations remain; C36_violated shows the default configuration depends on it."
 ],
 "C37": [
  "proved",
  "Needs a positive callback frequency; C37_zero_frequency_panics shows why."
 ],
 "C38": [
  "partial",
  "Holds without restriction in builds without the checkpointing feature; with it, when seed + iterations fits in 64 bits; C38_violated shows the overflow."
 ],
 "C39": [
  "proved",
  "bincode legacy format with the derived serde layout; also the converse: whatever loads is an encoding"
 ],
 "C40": [
  "proved",
  ""
 ],
 "C41": [
  "proved",
  ""
 ],
 "C42": [
  "partial",
  "keep_all: a checkpoint of iteration 0 is never found (C42_iteration_zero_violated); otherwise proved for all histories and listing orders"
 ],
 "C43": [
  "proved",
  ""
 ],
 "C44": [
  "partial",
  "false in both modes for every crash point inside a write (C44_*_violated); other files stay loadable and the interrupted file never gives a wrong checkpoint"
 ],
 "C45": [
  "partial",
  "false when one name is the other followed by _<number> and modes differ (C45_violated); proved otherwise for all operation sequences"
 ],
 "C46": [
  "proved",
  "For every pair of optimizers; also composed with the file format, and as equality of the whole optimizer when both are set up alike. The filter factor, the sequential local solver and the time limit are not part of a checkpoint (C46_not_carried)."
 ],
 "C47": [
  "partial",
  "False as stated (C47_violated): the reference set is stored unshuffled. Proved: the resumed run examines exactly the remaining positions of the stored set, each once."
 ],
 "C48": [
  "proved",
  "For every checkpoint, every continuation (any schedule, failing or not), with a non-negative absolute tolerance."
 ],
 "C49": [
  "proved",
  "Sequential runs by C49_schedule, parallel ones by C49_parallel, the end by C49_final_every_mode. Callbacks are assumed not to replace the observer's callback or frequency (no public method does). The threshold of a resumed run is proved when the target is not already reached at the start."
 ],
 "C50": [
  "partial",
  "The state after the call is proved; the full property is false: with auto_resume the modification has no effect at all, without it stage 1 runs again, and filter factor and solver are never updated."
 ],
 "C51": [
  "partial",
  "Exact size needs a saved set not larger than the new population; a run with custom points violates it (C51_size_violated)."
 ],
 "C52": [
  "partial",
  "holds between builds with the same argmin and rayon features; false otherwise, for every checkpoint (C52_*_violated)"
 ],
 "C53": [
  "proved",
  "Visibility of observer numbers depends only on mode, construction and marks, for every history of observer calls."
 ],
 "C54": [
  "proved",
  "For every history of reports the best objective is the minimum reported and the best point that of its first report; counters only grow and improved calls never exceed local calls."
 ],
 "C55": [
  "partial",
  "Local calls and evaluations are exact in every mode unless a parallel batch reaches the target, and then never too large (C55_every_mode, C55_lost_at_target); improved local calls omit solutions that replace the set as new best (C55_improved_violated)."
 ],
 "C56": [
  "partial",
  "Shown stage-1 evaluations are those of the initial set and the local search; trial point evaluations are missing (C56_violated)."
 ],
 "C57": [
  "partial",
  "Exact for sequential runs. Parallel runs are characterised exactly (C57_parallel), but a batch with a single local search ignores the frequency (C57_parallel_violated). For frequency 0 the run panics (C57_frequency_zero)."
 ],
 "C58": [
  "partial",
  "A line is printed whenever the compared numbers changed; iteration and point changes are not compared (C58_*_violated)."
 ],
 "C59": [
  "partial",
  "The mode restricts all updates except the last added point (C59_violated)."
 ],
 "C60": [
  "partial",
  "Stage times are fixed after the end of the stage; the total time keeps growing (C60_violated)."
 ],
 "C61": [
  "proved",
  "Dispatch of solve_with_tracking: mismatched configurations give the requested solver's error without evaluations; matching ones run exactly the requested algorithm, for every solver library."
 ],
 "C62": [
  "partial",
  "Violated: Newton-CG with Hager-Zhang ignores curvature_threshold and tolerance (C62_violated); a third line-search bound is ignored (C62_bounds_violated). Proved for all other configurations: indistinguishable configurations are equal."
 ],
 "C63": [
  "proved",
  "For every solver library (any sequence of evaluations): tracking changes neither result nor evaluations, and the count is exact."
 ],
 "C64": [
  "proved",
  "COBYLA's search equals the one with errors replaced by +infinity and never aborts by itself; argmin solvers end with RunFailed at the failing evaluation; bounds mismatch is reported before any evaluation."
 ],
 "C65": [
  "partial",
  "Vertices proved for all inputs; exact condition for distinctness proved; distinctness violated by absorbed steps (C65_violated), proved when simplex_delta is at least 2^-52 of each coordinate."
 ],
 "C66": [
  "partial",
  "For every one of the eight builders and every sequence of setter calls, the built configuration has, in every field, the value of the last call of its setter, and otherwise the default. The defaults are those documented, except the HagerZhang bounds: C66_hagerzhang_default_violated proves that the documented [sqrt(eps), inf] are not what the builder uses."
 ],
 "C67": [
  "proved",
  "For every string the parser returns exactly the solver whose name it equals up to letter case, and rejects all others, with and without the argmin feature; no string has two readings. Unicode lower-casing is a parameter restricted by the facts in UnicodeLower."
 ],
 "C68": [
  "partial",
  "Position, number and form of all constraint lines proved for every solution set, problem and description list. Mark and remark agree for all values that are not NaN; C68_violated proves that the NaN line shows a cross and says satisfied."
 ],
 "C73": [
  "partial",
  "Proved for all solvers except Newton-CG, for which it is violated (C73_violated)."
 ],
 "C69": [
  "partial",
  "Proved for every history and interleaving on threads whose last constraints() call was for the problem; numbers of problems are distinct. Violated on other threads (C69_other_thread_violated, C69_worker_violated) and after another problem's constraints() call (C69_other_problem_violated)."
 ],
 "C70": [
  "partial",
  "Rectangular lists are accepted unchanged and the accepted shapes are characterised for all lists; ragged lists whose total length fits are accepted (C70_violated)."
 ],
 "C71": [
  "proved",
  "Iteration, indexing and best_solution for all solution sets; agreement with the Rust solution set."
 ],
 "C72": [
  "proved",
  "All solver names and configuration objects; parameters and all settings are passed on unchanged."
 ],
 "C74": [
  "partial",
  "Proved for all classes except HagerZhang and COBYLA, for which it is violated (C74_hagerzhang_violated, C74_cobyla_violated)."
 ],
 "C75": [
  "partial",
  "Proved for zero tolerances and finite objectives; violated with the default tolerances (C75_violated)."
 ],
 "C76": [
  "partial",
  "Proved for any number of threads, tasks and schedules when Python functions do not call optimize; an objective that calls optimize deadlocks for ever (C76_violated)."
 ],
 "C77": [
  "partial",
  "Proved for histories without failing constraints and for problems without constraints; after one failure every later constraints() panics for ever (C77_violated)."
 ],
 "C78": [
  "partial",
  "The callback used is characterised for all call sequences; a built-in callback chosen after a Python one is ignored (C78_violated)."
 ],
 "C79": [
  "partial",
  "Failure leaves the observer unchanged for all inputs; a fresh observer shows exactly the work of the optimization in every mode (at most that when the target was reached in parallel mode); a reused one shows the sum (C79_reuse_violated)."
 ],
 "C80": [
  "proved",
  "the conversation relation leaves the solver library free; COBYLA is assumed to ask only for constraints that exist"
 ],
 "C81": [
  "proved",
  "for fresh runs of a newly built optimizer in every environment whose local solver is the modelled runner"
 ],
 "C82": [
  "proved",
  "for runs whose environment completes every scheduled task; the library must return (no endless interaction) and keep the dimension of points"
 ],
 "C83": [
  "proved",
  "under the hypothesis that the solver library reports the value it obtained; the +inf case is witnessed by C83_failed_point_returned"
 ],
 "C84": [
  "proved",
  "for successful fresh runs of every mode; equality when the target is not reached, at most otherwise (C84_every_mode); without a stage 2 observer there is nothing to show"
 ],
 "C85": [
  "proved",
  "Runs that succeed, any mode; callbacks that leave the observer alone (Tame).  The set at a moment is computed from the recorded history."
 ],
 "C86": [
  "partial",
  "Proved for batches of more than one point; one point at a time the values from before the iteration are shown (C86_violated)."
 ],
 "C87": [
  "partial",
  "C87_history_partial/C87_run_partial give the exact contents of the set: the first member and, of the solutions processed after it, exactly those admissible, within tolerance and apart from what was kept. Solutions found before the first member are lost even when within tolerance of it: C87_violated."
 ],
 "C88": [
  "proved",
  "the limit is looked at between batches only (C88_whole_batches); the exact cut is proved in every mode (C88_exact)"
 ],
 "C89": [
  "partial",
  "Proved: equal results, events and final states of the first run where the seed leaves room for the iterations (or without overflow checks); overflow checks make no difference at all without the feature. Missing: large seeds in debug builds (counterexample C89_violated_seed) and later runs (counterexample C91_violated)."
 ],
 "C90": [
  "proved",
  "The set is what processing the local solutions of all runs in order gives, by the rules of a single run; the first member never gets worse; members come from local searches."
 ],
 "C91": [
  "partial",
  "Proved for builds without the checkpointing feature, in every mode and batch size, for any sequences of earlier runs. Counterexample with the feature: the second run shuffles with another seed (C91_violated)."
 ],
 "C92": [
  "partial",
  "Proved for sequential runs, fresh and resumed. In parallel runs the searched iteration is less than one batch before the checkpoint's; the full claim is false there (counterexample C92_violated, with the loss of a solution after crash and resume)."
 ],
 "C93": [
  "partial",
  "Proved for any number of lifetimes: without keep_all in every mode, with keep_all for sequential configurations and checkpoints of iteration above 0. With keep_all the claim is false for iteration 0 (C42_iteration_zero_violated) and in parallel runs (C93_violated: the checkpoint found is not the last one and lacks the returned solution)."
 ],
 "C94": [
  "partial",
  "Proved without keep_all in every mode, with keep_all for sequential configurations. In parallel runs with keep_all it is false (C94_violated)."
 ],
 "C95": [
  "proved",
  "All modes and batch sizes; the sequential mode is the case of batches of one iteration."
 ],
 "C96": [
  "proved",
  "Fresh runs, and resumed runs whose checkpoint does not reach the target yet and whose stored solution set is not the empty list."
 ],
 "C97": [
  "proved",
  "Fresh runs, and resumed runs under the same hypotheses as C96. C97_record_can_raise shows that inside a batch recording a solution can raise the threshold."
 ],
 "C98": [
  "proved",
  "Fresh runs, and resumed runs under the same hypotheses as C96. The panic of a zero callback frequency can occur after the target is reached because parallel batches call back before they test the target."
 ],
 "C99": [
  "proved",
  "For every optimizer, unreadable checkpoint and number of later starts."
 ],
 "C100": [
  "partial",
  "false for every kill point inside a write of the single file, and inside the write of a numbered file above 0 of a sequential program: the program then fails at every later start (C100_single_violated, C100_keep_all_violated); proved: after removing the interrupted file it resumes from the last other checkpoint (keep_all) or starts afresh; kill points between events: C93"
 ],
 "C101": [
  "proved",
  "In terms of runs of every mode (C101_fresh, C101_resumed, C101_seed, C101_seed_resumed) and of directories over any number of interruptions and restarts (C101_lives). The seed part needs a build with the checkpointing feature, in which alone checkpoints are written."
 ],
 "C102": [
  "partial",
  "False (C102_violated): the final checkpoint holds the number of the last iteration, not the next one, and the reference set before the shuffle, so the second run examines at least one point again (C102_examines_again), may search from it and return more solutions. Proved: at most one batch is examined again, with at most one search for each point and no first search, and the result is the returned set with these solutions added (C102_one_batch_partial); the first solution is kept or improved (C102_first_partial). Missing: the claim itself, since the code does not have the property."
 ],
 "C103": [
  "partial",
  "Accepted points and starting points of searches: proved for all finite points and all factors (C103_accepted, C103_searched, C103_searched_resumed). Rejected points, the duplicate test and returned sets: proved when the square of the factor does not overflow (C103_rejected_partial, C103_duplicate_partial, C103_not_duplicate_partial, C103_returned_partial); for factors above 2^512 it is false, since both squares become infinite (C103_rejected_violated, C103_duplicate_violated). The specification computes in rationals and does not use the model's distance."
 ],
 "C104": [
  "partial",
  "Set and sizes: proved for fresh and resumed runs in every mode. Threshold lines: one per relaxation with its iteration and the threshold before (C104_adjusting_partial); the number printed as the new threshold is t + 0.1|t|, not t + threshold_factor (1 + |t|) (C104_adjusting_violated). Lines are modelled as the values handed to println!, read off the events of the run; stage, target, time limit and x0 lines are not modelled."
 ],
 "C105": [
  "proved",
  "The specification computes in rationals. With a relative tolerance above one the bound can fail by overflow (C105_large_violated), which is why the range is part of the property."
 ],
 "C106": [
  "proved",
  "For a resumed run the solver in force may be the optimizer's or the checkpoint's; the theorem covers both. COBYLA deliberately swallows failures (C64, C82)."
 ],
 "C107": [
  "partial",
  "Fresh runs with a new observer and runs resumed with stage-2 tracking are covered exactly. The full statement fails: the start of the scatter search is never printed, the numbers of initial and accepted points are wrong, a resumed run prints nothing with the documented set-up, and the point shown is not that of the best objective; each is a witness theorem."
 ],
 "C108": [
  "partial",
  "Proved for bounds of magnitude at most 2^1022; for larger bounds the sum of two reference points overflows and the perturbed points are not near the middle (witness theorem)."
 ],
 "C109": [
  "partial",
  "The first half is proved for all finite bounds. The second half needs the sum of the sampled squared distances to be at most 2^1022; beyond, the threshold is infinite and every trial point is lost (witness theorem)."
 ],
 "C110": [
  "partial",
  "Proved within a run, fresh or resumed. Not over restarts: the elapsed time of a resumed run begins at 0 again (witness theorem)."
 ],
 "C111": [
  "proved",
  ""
 ],
 "C112": [
  "partial",
  "The stored point is appended to the reference set without its objective. Proved for every reachable state and every point: best_solution never returns it, it is never combined, the next change of the reference set drops it, and run discards it."
 ],
 "C113": [
  "partial",
  "Proved but for two points. What is announced as x0 is the solution, not the start of its search. A stage-2 solution that replaces the whole set as a new best one is not announced as added. The printed new threshold is the one of C104."
 ],
 "C114": [
  "partial",
  "Messages determine their errors and contain the numbers of the rejected input. But NoFeasibleSolution always says 0 candidates, a failed local search always names solver \"unknown\", a failed evaluation always names stage \"unknown\" without its cause, \"No feasible candidates found\" is also said if too few were found, and a population of 3 is rejected as not being at least 3."
 ],
 "C115": [
  "partial",
  "With a terminal that can be written the bars do not influence a run, the bar of stage 1 names the phase reached, that of stage 2 begins where it should. But update(1).expect(..) panics if the terminal cannot be written, the bar of stage 1 is advanced five times with a total of three, and that of stage 2 never moves during a run."
 ],
 "C116": [
  "partial",
  "All but the numbers of points, which are true if the saved reference set has as many points as the population. With custom points it can be larger; then the announced sizes are wrong. 'Iterations changed' is printed although they did not change."
 ],
 "C117": [
  "partial",
  "Texts of solutions and sets completely. str of an observer is proved for stage 2 and observers not used before. The state of stage 1 is missing from it after optimize, although it was tracked."
 ],
 "C118": [
  "partial",
  "All evaluation errors; runs whose objective fails at a point of the initial reference set. A failure in stage 2 is reported without its cause."
 ],
 "C119": [
  "proved",
  "All checkpoints; runs in every mode, fresh and resumed."
 ],
 "C120": [
  "partial",
  "Holds for COBYLA, and for the classes except for what C120_stub_violated says. False for the seven other builder functions: every argument but l1_coefficient is required."
 ],
 "C121": [
  "proved",
  "All states; optimizations with an observer for stage 2 that was not used before."
 ],
 "C122": [
  "proved",
  "All configurations and observers; an observer with a poisoned lock panics when copied and is outside the model."
 ],
 "C123": [
  "partial",
  "The tables are proved complete and exact for every name. The stub file is only partly right: `C123_stub_violated` lists the names it declares that do not exist."
 ],
 "C124": [
  "partial",
  "Proved for calls made one by one. The methods return None, so two chained calls raise AttributeError and `observer = Observer().with_…()` binds None: `C124_chain_violated`, `C124_one_violated`."
 ],
 "C125": [
  "partial",
  "Proved for the order of the signature. The stub file has `local_solver` in third place, the function `observer`: a call by position as in the stub raises TypeError (`C125_stub_violated`)."
 ],
 "C126": [
  "proved",
  "Observers that were not used before; for others see C79_reuse_violated. After a run that ends in stage 1, stage2() is None."
 ],
 "C127": [
  "proved",
  "nested lists of starting points are read as in C70; comparisons with NaN parameters are those of the code"
 ],
 "C128": [
  "partial",
  "Proved except for dimensions: a gradient of the wrong length, a Hessian of the wrong size and bounds with a third column are passed on (`C128_shapes_violated`)."
 ],
 "C129": [
  "proved",
  ""
 ],
 "C130": [
  "proved",
  ""
 ]
}
