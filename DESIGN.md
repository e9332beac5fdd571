# Formal model of globalsearch-rs: design

The source in `/repo` is read as text; nothing is compiled or executed.
The model is a set of total, computable Lean 4 functions that follow the Rust
functions one by one.  Every definition cites the file and lines it models.

## 1. Layout

| module (under `lean/Verif/`) | contents |
|---|---|
| `F64/*` | binary64 model: sign + 63-bit magnitude, exact rational value, round-to-nearest-even, `+ - * /`, comparisons, `total_cmp`, `min/max/clamp/abs`, `sqrt` (`sqrt_correct`), `as usize` |
| `Model/*` | the Rust code: filters, solution set, scatter search, OQNLP state machine, checkpoint naming / directory / bincode codec, observers, local-solver dispatch, builders, display, Python bindings |
| `Lemmas/*` | helper lemmas |
| `Props/*` | the property theorems (one file per area) with their non-vacuity `example`s |

## 2. Modelling decisions

* **Doubles.** `F64` is a sign bit and a magnitude below 2^63; the magnitude
  ordering is the value ordering.  Arithmetic is "exact rational result, rounded to nearest even".
  NaN results are canonical (`0x7ff8...`): Rust does not specify NaN payloads.
  Values that are only copied keep their exact bits.
* **Vectors** `Array1<f64>` of the problem dimension `n` are `Fin n -> F64`: all
  arrays that meet in an arithmetic operation have the same length.  Dimension mismatch
  panics of ndarray are outside the model except where the code checks lengths itself
  (`with_points`, COBYLA bounds, Python lists), which are modelled on lists.
* **Dot product** is ndarray's 8-way unrolled loop (dependency, modelled from its published source).
* **Panics, overflow and errors** are explicit error values.
* **`&mut self`** is state passing; a failing step still returns the mutated state.
* **External code** (objective, constraints, local solver numerics, RNG streams, shuffle, unstable
  sort, `select_nth_unstable`, rayon splitting, clock, disk errors) enters as parameters with the documented contract;
  theorems quantify over all of them; a concrete instance is given to show the contracts are satisfiable.
* **Rayon** reductions are folded along an arbitrary binary split tree; indexed `collect` keeps order.
* **Feature set**: the model follows the build with `argmin`, `rayon` and `checkpointing`.  The environment
  says whether the feature `checkpointing` is on; off, the bookkeeping fields are ghosts nothing reads, the
  optimizer has no checkpoint configuration, and stage 2 shuffles with the plain seed (src/oqnlp.rs 692, 713,
  919, 933).  A build without `rayon` is the model with parallel processing switched off: every
  `cfg(not(feature = "rayon"))` branch (src/oqnlp.rs 724, 955, 993, 1468; src/scatter_search.rs 371, 405, 477,
  497, 533, 586, 625, 677, 764, 807, 870) is textually the sequential branch of the `rayon` build, and the
  batch size is 1.
* **Traces.** The OQNLP state carries the list of observable events (point examined, local search
  started, callback, checkpoint written), so that trace and crash properties can be stated.

## 3. Plan per property

| id | what is modelled | how proved |
|---|---|---|
| C01 | `DistanceFilter` over histories | refinement to "all recorded"; dist of a finite point to itself is 0 |
| C02 | `MeritFilter` over histories | induction on update list |
| C03 | `adjust_threshold` | monotone rounding |
| C04 | `best_solution` | induction on list |
| C05 | `process_local_solution` | invariant over histories |
| C06 | same | invariant, strict decrease |
| C07 | same | violated for large `rel_tol` (witness); exact for `rel_tol` up to 1/2 by a rounding argument, false at 1/2 + 2^-52 |
| C08 | same | invariant over histories for all non-negative tolerances and finite objectives; NaN and +inf witnesses |
| C09 | same | induction |
| C10 | `is_within_bounds`, run | violated for NaN coordinates (witness); partial for non-NaN |
| C11 | `OQNLP::new` | decision logic; documented "at least 3" is violated at 3 (witness); NaN factors |
| C12 | `with_points` | decision logic on lists; NaN witness |
| C13 | `ScatterSearch::new` | decision logic; NaN witness |
| C14 | scatter search | clamp lemma, midpoint rounding; overflow witness |
| C15 | scatter search | filter invariant; NaN constraint values count as satisfied |
| C16 | scatter search | permutation invariants |
| C17 | scatter search | counting |
| C18 | scatter search | order lemmas on permutations |
| C19 | `update_reference_set` | `select_nth` contract |
| C20 | scatter search | permutation invariants |
| C21 | diversification loop | loop invariant on cached distances |
| C22 | diversification | counting |
| C23 | `generate_trial_points` | counting pairs; `(len as f64).sqrt() as usize` is the integer square root below 2^52 elements (more do not fit in memory; false at 2^54 - 1) |
| C24 | reductions over split trees | associativity; float sum counterexample |
| C25 | sequential vs parallel `min_distance` | counterexample, partial above 1e-14 |
| C26 | stage-2 loop | trace invariant |
| C27 | stage-2 loop | trace invariant |
| C28 | cached objectives after shuffle | violated (witness), partial |
| C29 | stage-2 loop | step lemma + invariant |
| C30 | stage-2 loop, target | trace invariant |
| C31 | run | case analysis over whole run |
| C32 | run | counting |
| C33 | chunks of a sequential loop | fold over concatenation |
| C34 | parallel batch | permutation of completion order |
| C35 | parallel batch | violated (witness), partial |
| C36 | effective batch size | violated (witness), partial |
| C37 | run with/without observer | simulation relation |
| C38 | seed arithmetic | violated (witness), partial |
| C39 | bincode codec | round trip by structural induction |
| C40 | codec | strict prefixes fail |
| C41 | file names | decimal printing/parsing round trip |
| C42 | directory | fold over save history; iteration 0 is never found (witness) |
| C43 | cleanup | sorting/permutation |
| C44 | crash points | violated (witness), partial |
| C45 | names | violated (witness), partial |
| C46 | checkpoint create/restore | record equality |
| C47 | resume | violated (witness), partial |
| C48 | resume | invariant |
| C49 | save events | trace invariant; parallel batches by their filter decisions (Lemmas/MarksPar) |
| C50 | resume with parameters | violated (witness), partial |
| C51 | expand | diversification invariants |
| C52 | feature-dependent encodings | violated (witness), partial |
| C53-C60 | observers | invariants over operation sequences; violated parts with witnesses |
| C61-C67 | local solver glue and builders | decision logic, interaction-tree semantics of solver programs |
| C68 | display | structure of the produced lines |
| C69, C77 | Python constraint registry | state machine over all interleavings of threads; violated parts with witnesses |
| C70 | nested lists | exact acceptance condition; ragged witness |
| C71 | `PySolutionSet` | induction on the list, equality with the Rust best solution |
| C72 | `optimize` arguments | decision logic over names and configuration objects; record equality |
| C73 | configuration errors | case analysis over solvers; Newton-CG witness |
| C74 | Python defaults | record equality; HagerZhang and COBYLA witnesses |
| C75 | order of results | from C05 for zero tolerances; witness run for the default ones |
| C76 | locks of the bindings | lock-order invariant, progress and termination for any number of threads; nested `optimize` is stuck |
| C78 | observer callbacks | induction on method calls; witness |
| C79 | observer write-back | from C55; witness of two runs |
| C80 | results of local searches | conversation relation between solver and problem, induction on the interaction tree |
| C81 | foreign configurations | the run with the runner as its local solver (`Model/Bridge.lean`); first search refused |
| C82 | COBYLA and failing evaluations | every search event of the trace is an answer of the runner, which succeeds |
| C83 | objective values of solutions | invariant "members come from a search" and C80; witness of a returned failing point |
| C84 | evaluation count | observer invariant C55 and counting C63; parallel batches by the debt of evaluations not yet reported (Lemmas/Owed) |
| C85 | callbacks show current numbers | relation between states respected by every step of stage 2, events carry what callbacks see |
| C86 | callbacks show the threshold in force | the same for parallel batches; counterexample for one point at a time |
| C87 | distinct near-best solutions are returned | exact contents of the set since its first member; counterexample for earlier solutions |
| C88 | time limit | clock-independence of everything before the loop; the limited loop is a prefix of the unlimited one |
| C89 | the checkpointing feature unused | simulation between the two builds; counterexample for large seeds in debug builds |
| C90 | repeated runs keep solutions | fold of all solutions over all runs |
| C91 | repeated runs examine the same points | shape of a fresh run from any state; counterexample with the checkpointing feature |
| C92 | checkpoint numbers cover earlier candidates | order of writes and searches in the trace; bound by the batch size; counterexample in parallel mode |
| C93 | a restart finds the last checkpoint | run and checkpoint directory together; induction over lifetimes with the invariant `LifeInv`; counterexample in parallel mode with `keep_all` |
| C94 | interruptions lose only what came after the last checkpoint | the same invariant: the checkpoint found holds the fold of everything kept; counterexample in parallel mode with `keep_all` |
| C95 | examined points, order and number, in every mode | invariant `AllInv` over batches (Lemmas/AllRun, AllBatch, AllLoop): pending merit values, points to search, solutions to record and rejections to count |
| C96 | a point is judged by the results of earlier batches | the same invariant; batches are consecutive blocks of iterations |
| C97 | threshold dynamics in every mode | the same invariant: threshold and rejection count are read off the trace by `inForce` and `rejections` |
| C98 | the target stops the run in every mode | the same invariant: no event of stage 2 follows a trace that meets the target |
| C99 | an unreadable checkpoint stops the run before any work | unfolding the start of `run`; induction on the lifetimes |
| C100 | a program killed at any moment can be started again | false for kills inside a write; the files after any history are those of all writes, numbers rise in sequential programs |
| C101 | checkpoints carry reference set and seed unchanged | invariants of the stage-2 actions on the fields of the optimizer that `create_checkpoint` copies; induction over restarts |
| C102 | a finished program started again does no further work | false; at most one batch is repeated, and what is found is added to the returned set |
| C103 | distance tests against exact distances | relative error of each rounded operation, interval invariant through the eight-lane sum, Bernoulli; then C01, C05, C96 restated with rational distances; false when squares overflow |
| C104 | verbose output accounts for the set and the threshold | lines as a function of the events; induction over traces that reading the lines gives the set of the verdicts, which is the set of the machine; false for the printed new threshold |
| C105 | tolerance against exact differences | error bounds of the rounded difference and product, monotone rounding against overflow, then C05 |
| C106 | `solve_with_tracking` (argmin), `Problem` defaults, `run` | conversation invariant: questions before the end are answered; run level by C31 |
| C107 | `with_default_callback`, `with_stage1_callback`, `with_stage2_callback` during a run | the state of the observer carried through stage 1, then one line per callback of stage 2 |
| C108 | the six combinations of each pair of the best reference points, coordinate by coordinate | error bounds of `+`, `-`, `*`, `/` on finite doubles in rational arithmetic; projection is 1-Lipschitz; false when a sum of two points overflows |
| C109 | the diversity threshold and the test of trial points against exact distances | interval invariant through the split tree of the parallel sum, then quotient and product; C19 for what is kept; false when squared distances overflow |
| C110 | elapsed times and the time limit against a clock in nanoseconds | `Duration::as_secs_f64` as two exact integers, a quotient and a sum; its error and monotonicity; the k-th checkpoint of a run carries the k-th stamp; C88 for the limit |
| C111 | a resumed run is a function of the checkpoint and the live settings | restoring overwrites all other fields; stage 2 commutes with replacing the custom points |
| C112 | what becomes of stored trials | the objectives are shorter than the reference set: index of the minimum, indices of the combined pairs and the zip stay below the stored point |
| C113 | verbose output tells the course of a run | the machine once more with its output; projection onto the machine without; invariant relating output and events, induction over batches for the lines about the course; false for `x0` and for new best solutions |
| C114 | the message of an error tells what failed | texts as lists of characters; no two kinds begin alike, numbers end at a non-digit; false for the number of candidates, the solver, the stage and the minimal population |
| C115 | progress bars show how far a run is and do not influence it | the machine with the calls of kdam in their places; simulation by the machine without them; false for a terminal that cannot be written and for the number of steps of both bars |
| C116 | resuming with other parameters says truthfully what was taken over | both functions with their output, compared with those without; sizes by C51; false if the saved reference set is larger than the population |
| C117 | what Python prints about results and observers is what they hold | texts as lists of characters, read back by injectivity; observers by C79; false for stage 1, which is not shown after a run |
| C118 | the message of a failed evaluation tells its cause | texts of all kinds of `EvaluationError` told apart by single characters, then read; runs by C31; false for stage 2 |
| C119 | the text of a checkpoint tells its contents | lines as lists of characters, read back line by line; files by C42, runs by C31 and C49 |
| C120 | Python configurations can be created with any of their arguments | calls as records of optional arguments; case distinction on what is given; false for seven functions and parts of the stub file |
| C121 | the text of an observer state tells its counters | `repr` as characters read field by field, `str` as lines; runs by C79 |
| C122 | a copy of a configuration or observer is the same | field by field; the debug text is read as in C117 |
| C123 | the names of the Python module are exactly those it is meant to export | model the three initialisers as sequences of `add_class`, `add_function` and `setattr(getattr)`; a name is found iff its table lists it |
| C124 | a Python observer has the settings chosen by its calls | settings of the fold of the calls; false for chained calls, as the methods return `None` |
| C125 | the arguments of the Python optimize are bound as documented | binding as lookup by position, then by name; permutation of named arguments with distinct names; false for the order of the stub file |
| C126 | a Python program reads the metrics of its run from the observer | attributes as a function of the name compared with a table; C124 and C79 for programs |
| C127 | what the Python function optimize accepts, returns and raises | exact condition from C11, C12, C70 and C72; results from C05, C10, C32, C71 and C83 |
| C128 | the functions of a Python problem reach the solvers, and their failures the caller | the wrapper functions by cases; C106 and C127 for whole calls |
| C129 | what a Python program does with its results stays where it was done | invariance of every object under every statement, by induction over programs |
| C130 | a run without parallelism is repeatable | no sequential branch reads what threads do; preserved setting by `Steps`; C72 for Python |

## 4. Trusted base

* Lean's kernel.  Every property theorem depends on a subset of `propext`, `Classical.choice`, `Quot.sound`; there are no
  own axioms, no `sorry`, no `native_decide` and no `bv_decide`.  Witness facts are evaluated by the kernel
  (`decide +kernel`).
* The reading of the Rust source: each definition cites the lines it follows.
* The contracts of external code, all of them hypotheses or parameters of the theorems:
  * `Runtime.Valid` (Model/Runtime.lean): shuffles and unstable sorts return permutations, sorted by the key;
    `select_nth_unstable_by` partitions; random draws lie in the requested range.
  * `Env` (Model/Oqnlp.lean): objective, constraints, local solver, clock, disk, thread count, completion order
    and observer callbacks are arbitrary functions.  Where a theorem needs a callback not to tamper with the observer it
    says so (`Tame`, `Polite`, `BuiltIn`): Rust callbacks get `&mut Observer` (src/observers/mod.rs 88) and may even replace
    the observer; `Tame` excludes that, `BuiltIn` says the callbacks are those of the library.
  * `Lib` (Model/Runner.lean): argmin, argmin-math, COBYLA are arbitrary interaction trees that ask for evaluations.
  * `Clocked` (Model/Elapsed.lean), C110 only: `Instant` is monotonic with nanosecond resolution, durations are below 2^52 s.
  * `UnicodeLower` (Props/Builders.lean): facts about Unicode lower-casing used by `to_lowercase`.
  * `Fmt` (Model/Display.lean): number and array formatters are arbitrary.
  * `Words.Readable` (Lemmas/Messages.lean), C114 only: `usize` is written in decimal, `f64` without comma and so that it can be read back.
  * `Legible` (Props/PyText.lean), C117 only: `usize` in decimal; `f64` not empty, without comma, bracket and space, and so that it can be read back.
  * `CkptLegible` (Props/CkptText.lean), C119 only: `usize` in decimal, `f64` so that it can be read back, `{:.8e}` never "None".
  * `StateLegible` (Props/StateText.lean), C121 only: `usize` in decimal, `{:.6}` without comma.
  * `Screen` (Model/Progress.lean), C115 only: a step of a `kdam` bar either is drawn and counted or fails; nothing else of kdam matters.

### Modelled

| code | model |
|---|---|
| `src/filters.rs` | `Model/Filters.lean` |
| `src/types.rs` (parameters, solution set, names, text reports) | `Model/Types.lean`, `SolutionSet.lean`, `Builders.lean`, `Display.lean` |
| `src/scatter_search.rs` | `Model/Scatter.lean`, `Runtime.lean` |
| `src/oqnlp.rs` (construction, run, batches, resume, checkpoints, expansion) | `Model/Oqnlp.lean` |
| verbose lines about solutions, set size, threshold and checkpoints (`src/oqnlp.rs` 1080-1160, 1746-1756, 1848-1857) | `Model/Verbose.lean`, values before formatting |
| all other verbose lines of `run` (`src/oqnlp.rs` 705-1011, 1550-1555, 1724-2060) | `Model/Transcript.lean`, values before formatting |
| messages of errors (`src/oqnlp.rs` 156-217, `src/scatter_search.rs` 95-131, `src/local_solver/runner.rs` 92-119, `src/checkpoint.rs` 116-151, `src/filters.rs` 77-78) | `Model/Messages.lean`; texts from outside and the formatting of numbers are arbitrary |
| progress bars (`src/scatter_search.rs` 243-425, `src/oqnlp.rs` 884-905) | `Model/Progress.lean`: total, steps and description; postfix and drawing are left out |
| output when resuming with other parameters (`src/oqnlp.rs` 1382-1508) | `Model/ResumeText.lean`: lines with their numbers, before formatting |
| `__repr__`, `__str__` of solutions, solution sets and observers (`python/src/lib.rs` 241-247, 339-366, `python/src/observers.rs` 546-578) | `Model/PyText.lean`: characters, formatting of single numbers as parameters; observers as sections with their numbers, before formatting |
| `EvaluationError` and its `Display` (`src/types.rs` 521-590) | `Model/EvalText.lean`: characters; elsewhere in the model an evaluation error is a code, C118 quantifies over what the codes mean |
| `Display` of `OQNLPCheckpoint` (`src/types.rs` 734-778) | `Model/CkptText.lean`: lines of characters, formatting of single numbers as parameters |
| objects of Python programs (`python/src/lib.rs` 181-390) | `Model/PyObjects.lean` |
| Python problems (`python/src/lib.rs` 454-700) | `Model/PyProblem.lean` |
| outcome of the Python `optimize` (`python/src/lib.rs` 785-985) | `Model/Python.lean` |
| attributes of observers and their states (`python/src/observers.rs` 40-106, 151-259, 486-545) | `Model/PyAttr.lean` |
| binding of the optional arguments of `optimize` (`python/src/lib.rs` 773-799) | `Model/PyArgs.lean`: a fixed set of Python types; conversion of `int` to `float` is a parameter |
| statements and chained calls on a `PyObserver` (`python/src/observers.rs` 331-480, `python/src/lib.rs` 743-746) | `Model/PyChain.lean` |
| `pyglobalsearch`, `init_module` of `builders` and of `observers` (`python/src/lib.rs` 1042-1060, `python/src/builders.rs` 1049-1091, `python/src/observers.rs` 613-627) | `Model/PyNames.lean` |
| `Clone`, `Debug` of `LocalSolverConfig`, `Clone` of `Observer` (`src/local_solver/builders.rs` 192-319, `src/observers/mod.rs` 281-297) | `Model/Copies.lean`; elsewhere in the model copies are the same value |
| `__repr__`, `__str__` of observer states (`python/src/observers.rs` 108-129, 261-288) | `Model/StateText.lean`: characters and lines, formatting of single numbers as parameters |
| classes and functions of `builders` (`python/src/builders.rs` 76-1046) | `Model/PyCalls.lean`: a call is the record of its bound arguments; binding by position or name and number conversion are pyo3's |
| `std::time::Duration::as_secs_f64` and the instants the run reads (`src/oqnlp.rs` 697-699, 927-928, 963-965, 1563-1564) | `Model/Elapsed.lean` |
| `src/checkpoint.rs` (names, directory, codec) | `Model/Checkpoint.lean`, `Bincode.lean` |
| a program restarted after interruptions: run and checkpoint directory together (`src/oqnlp.rs` 1357-1375, 1593-1609) | `Model/Restart.lean`; a lifetime ends between two events, no write fails (torn writes: `Model/Torn.lean`) |
| `src/observers/*` | `Model/Observer.lean`; what the built-in callbacks print during a run: `Model/Console.lean`, values before formatting |
| `src/local_solver/runner.rs` (dispatch, settings, counting, failures, simplex) | `Model/Runner.lean` |
| the run's use of `LocalSolver` | `Model/Bridge.lean` |
| `src/local_solver/builders.rs` | `Model/Builders.lean` |
| `python/src/lib.rs`, `builders.rs`, `observers.rs` | `Model/Python.lean`, `PyRegistry.lean`, `PyLocks.lean` |

### Not modelled

Numerics of argmin and COBYLA; the random generator; the formatting of printed numbers; reasons and paths
within error messages; file-system errors other than failing or interrupted writes; stack and heap exhaustion
(a checkpoint with a huge length prefix is a load error in the model, the program may abort); overflow of
counters of type `usize` other than `seed + iteration`; conversion of Python arguments by pyo3 (the model starts from converted
values; negative indices are an overflow error); Python getters; examples, benchmarks and tests.

### Simplifications

* The interior of an observer's callback is one function of identifier, stage and observer.
* When the scatter search panics after its initialisation the observer updates made before are dropped. Any other error
  of the scatter search comes before its first observer update (`scatter_fails_early`).
* `Checkpoint.timestamp` and the version string are ordinary fields.
* The checkpoint directory is a finite map from names to bytes with an arbitrary listing order.
* A write is the sequence of its prefixes; a crash leaves one of them (the file is truncated first).
* The library does not check the dimension of points loaded from a checkpoint; the model decodes points of dimension `n`.
* Python threads interleave at whole registry accesses (the registry lock is held during each).

## 5. Disagreements between the code and the properties

Each is proved by the named theorem; the property keeps its full statement and a `_partial` theorem where it fails.

| property | behaviour of the code | theorem |
|---|---|---|
| C03 | relaxing does nothing for an infinite threshold or a tiny factor | `C03_neg_inf_stuck`, `C03_tiny_factor_stuck` |
| C07 | with a large `rel_tol` a new best can be dropped later | `C07_lost_large_rel_tol`, `C07_lost_rounding` |
| C08 | a NaN or +inf first solution is never replaced | `C08_nan_head_kept`, `C08_inf_head_kept` |
| C10 | a NaN coordinate counts as inside the bounds | `C10_nan_returned` |
| C11 | NaN factors accepted; population size 3 rejected though documented | `C11_nan_accepted`, `C11_three_rejected` |
| C12, C13 | NaN custom points and NaN bounds accepted | `C12_nan_accepted`, `C13_nan_bounds_accepted` |
| C14 | the midpoint overflows for huge bounds | `C14_midpoint_overflow` |
| C21, C25 | the sequential mode stops at distances below 1e-14 | `C21_sequential_not_greedy`, `C25_modes_differ` |
| C24 | parallel sums of distances depend on the splitting; of several failing evaluations any may be reported | `C24_sum_order_matters`, `C24_error_depends_on_order` |
| C28 | cached objectives are used by position after only the points were shuffled | `C28_violated` |
| C29 | a local search can raise the merit threshold | `C29_violated` |
| C31 | objective failures at trial points are dropped | `C31_trial_failure_ignored` |
| C34 | which of several failures is reported depends on completion order | `C34_error_depends_on_order` |
| C35 | inside a batch the distance filter is stale | `C35_violated` |
| C36 | the default batch size depends on the number of threads | `C36_violated` |
| C38 | `seed + iteration` overflows | `C38_violated` |
| C42 | a `keep_all` checkpoint of iteration 0 is never found | `C42_iteration_zero_violated` |
| C44 | a crash during a write loses the latest state in both modes | `C44_single_violated`, `C44_keep_all_violated` |
| C45 | names of the form `run` and `run_5` interfere | `C45_violated` |
| C47 | the reference set is stored unshuffled, so a resumed run examines other points | `C47_violated` |
| C50 | `resume_with_modified_params` followed by `run` ignores the new parameters or repeats stage 1 | `C50_*_violated` |
| C51 | the saved reference set may exceed the population | `C51_size_violated` |
| C52 | checkpoints are not portable between feature sets | `C52_*_violated` |
| C55 | a new best is not counted as improved local call | `C55_improved_violated` |
| C55, C84 | parallel searches finished but not processed when the target is reached are not reported | `C55_lost_at_target` |
| C56 | stage-1 evaluations omit trial points | `C56_violated` |
| C57 | a parallel batch with a single local search invokes the callback whatever the iteration number | `C57_parallel_violated` |
| C49 | the final checkpoint of a parallel run can carry a smaller number than candidates already worked off | `C49_parallel_last_number` |
| C57, C37 | callback frequency 0 panics | `C57_frequency_zero`, `C37_zero_frequency_panics` |
| C58 | unique updates compare neither iteration nor point, and NaN always counts as changed | `C58_*_violated` |
| C59 | the last added point is recorded in every mode | `C59_violated` |
| C60 | the total time keeps growing after the end | `C60_violated` |
| C62 | Newton-CG with Hager-Zhang ignores two settings; extra line-search bounds are ignored | `C62_violated`, `C62_bounds_violated` |
| C65 | a small `simplex_delta` is absorbed by rounding | `C65_violated` |
| C66 | documented HagerZhang bounds are not the defaults | `C66_hagerzhang_default_violated` |
| C68 | a NaN constraint shows a cross and says satisfied | `C68_violated` |
| C69 | constraint functions depend on a thread-local problem number | `C69_*_violated` |
| C70 | ragged lists whose total length fits are accepted | `C70_violated` |
| C73 | Newton-CG line-search errors are reported for steepest descent | `C73_violated` |
| C74 | Python defaults of HagerZhang and COBYLA differ | `C74_*_violated` |
| C75 | results are not sorted with the default tolerances | `C75_violated` |
| C76 | an objective that calls `optimize` deadlocks | `C76_violated` |
| C77 | one failing constraint poisons the registry for ever | `C77_violated` |
| C78 | a built-in callback chosen after a Python one is ignored | `C78_violated` |
| C79 | a reused observer shows the sum of both runs | `C79_reuse_violated` |
| C86 | one point at a time, callbacks show the threshold and unchanged cycles from before the iteration | `C86_violated` |
| C87 | replacing the set drops earlier solutions within tolerance of the new first member | `C87_violated` |
| C89 | with the feature `checkpointing` compiled in but not used, debug builds panic for seeds near `u64::MAX` | `C89_violated_seed` |
| C91 | with the feature compiled in, a second run shuffles with `seed + current_iteration` left over from the first | `C91_violated` |
| C92 | in a parallel batch the rejected candidates are finished and checkpointed before the local searches of the batch start; a crash in between and a resume lose earlier candidates | `C92_violated` |
| C93, C94 | with `keep_all` a restart takes the highest iteration number, but in a parallel run later checkpoints, including the final one, can have a smaller number than earlier ones; running a finished program again then returns a worse solution than before | `C93_violated`, `C94_violated` |
| C100 | a program killed while it writes a checkpoint cannot be started again: every later start fails with the error of reading the incomplete file, with and without `keep_all`, until the file is removed by hand | `C100_single_violated`, `C100_keep_all_violated` |
| C102 | a program whose run is complete, started again with the checkpoint it left, examines at least one point again (the final checkpoint holds the number of the last iteration, not of the next), possibly one that was never examined before because the stored order is that before the shuffle; it may search from it and return more solutions | `C102_violated`, `C102_examines_again` |
| C103 | with a distance factor above 2^512 its square is infinite: the filter rejects points however far away, and the duplicate test keeps solutions however close once their squared distance overflows | `C103_rejected_violated`, `C103_duplicate_violated` |
| C104 | the verbose line `Adjusting threshold from a to b` prints b = a + 0.1 abs(a), while the threshold becomes a + threshold_factor (1 + abs(a)) (src/oqnlp.rs 1752, 1854, 1622-1626) | `C104_adjusting_violated` |
| C107 | of the documented messages "Starting Scatter Search" is never printed; "Initial Points" is always 0; "Accepted" is the size of the reference set; in a resumed run the default callback with both stages tracked prints nothing; "Best ... at" shows the last added point, not that of the best objective | `C107_start_violated`, `C107_initial_points_violated`, `C107_accepted_violated`, `C107_resumed_violated`, `C107_at_violated` |
| C108 | with bounds above 2^1022 the sum of two reference points overflows; with bounds [2^1023, f64::MAX] the perturbed trial points of two points at the lower bound are at the upper bound | `C108_overflow_violated` |
| C109 | when squared distances overflow (bounds of about 2^512 and more) the threshold is infinite and trial points are rejected however far and however good they are | `C109_overflow_violated` |
| C110 | the elapsed time of a resumed run begins at 0 again; it is not added to the one in the checkpoint | `C110_violated` |
| C112 | `store_trial` appends the point but not its objective: the point is never returned as the best one, never combined, dropped at the next change of the reference set and discarded by `run` | `C112_best_violated`, `C112_combined_violated`, `C112_update_violated`, `C112_run_violated` |
| C113 | `x0 = …` in verbose output is the local solution, not the point the search started from (src/oqnlp.rs 1729, 1951, 2050); a stage-2 solution that is a new best one is not announced, since `process_local_solution` returns false for it (1127-1147) | `C113_x0_violated`, `C113_best_violated` |
| C114 | `candidates_evaluated` is the constant 0 (src/oqnlp.rs 836, 1029); `solver_type` and `stage` are the constant "unknown" (src/local_solver/runner.rs 279-1039, src/oqnlp.rs 1677, 1810) and the cause is dropped; "No feasible candidates found" if too few are (src/scatter_search.rs 456-466); "should be at least 3, got 3" (src/oqnlp.rs 181-184, check in `new`) | `C114_candidates_violated`, `C114_solver_violated`, `C114_stage_violated`, `C114_feasible_violated`, `C114_population_violated` |
| C115 | `update(1).expect(..)` panics if the terminal cannot be written; the bar of stage 1 is built with total 3 (src/scatter_search.rs 244) and advanced five times (279, 289, 311, 385, 425); the bar of stage 2 is not advanced after src/oqnlp.rs 905 |
| C116 | the sizes printed are population sizes, not sizes of the reference set (src/oqnlp.rs 1404-1420), which can be larger with custom points; "Iterations changed" is unconditional (1430-1433) |
| C117 | `PyObserver.__str__` uses `stage1()`, which is None once stage 1 is complete (python/src/observers.rs 553), so the section is missing after `optimize` |
| C118 | an evaluation error of stage 2 becomes `ObjectiveFunctionEvaluationFailed { stage: "unknown" }` and is dropped (src/oqnlp.rs 1676-1678, 1808-1812) |
| C120 | seven builder functions have no defaults (python/src/builders.rs 112-126, 165-169, 391-433, 515-530, 591-612, 695-720, 818-830); the classes take no bare line search (347, 562, 662); default bounds and the tolerance of Newton-CG differ from the stub file |
| C128 | gradients, Hessians and bounds of the wrong dimensions are passed on unchecked: `C128_shapes_violated` |
| C125 | the stub file has the arguments of `optimize` in another order (python/pyglobalsearch.pyi 1603-1625) than the function (python/src/lib.rs 773-786) |
| C124 | the methods of `PyObserver` return None (python/src/observers.rs 331-476), so the chained example of `optimize` (python/src/lib.rs 745) raises `AttributeError` |
| C123 | the stub file declares `builders.steepest_descent`, `PyLineSearchMethod` and top-level configuration and observer classes, none of which exists (`C123_stub_violated`) |
| C29, C97 | in a parallel batch the threshold can rise without being relaxed: the solutions of the batch are recorded one after the other, and each sets the threshold to the merit value of its own starting point, so a later point of the batch replaces the smaller value of an earlier one | `C97_record_can_raise` |

Further observations without a property of their own: the checkpointed iteration is processed again on resume and the saved
`unchanged_cycles` are those before it; `batch_iterations(0)` and a save frequency of 0 panic; a failing final checkpoint write
makes `run` return an error although solutions were found; setting a callback frequency installs the default
callback when none is set; `wait_cycle = 0` relaxes the threshold at every rejection; the stage-2 line of the default callback
combines the best objective with the last added point.
