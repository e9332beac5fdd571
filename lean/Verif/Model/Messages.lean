/- The texts of the errors returned by `OQNLP` (`Display`, derived with `thiserror`).

Formatting of numbers and the texts made elsewhere (by the user's problem, by argmin and cobyla, by the file system) are
arbitrary. -/
import Verif.Model.Oqnlp

namespace GS

/-- Texts that errors are made of. -/
structure Words where
  /-- `Display` of `usize` -/
  nat : Nat → List Char
  /-- `Display` of `f64` -/
  float : F64 → List Char
  /-- `Display` of `EvaluationError`: src/types.rs 526-590 -/
  eval : EvalErr → List Char
  /-- the `reason` of a local solver error: src/local_solver/runner.rs 91-116 -/
  reason : LErr → List Char
  /-- operation, path and cause of a checkpoint error: src/checkpoint.rs 112-152 -/
  detail : CkErr → List Char

/-- `Display` of `FiltersErrors`: src/filters.rs 77-78. -/
def FilterError.text (w : Words) : FilterError → List Char
  | .negativeDistanceFactor v => "Distance factor must be positive or equal to zero, got ".toList ++ w.float v

/-- `Display` of `ScatterSearchError`: src/scatter_search.rs 95-123. The phase is always the one of the `From`
implementation, src/scatter_search.rs 127-131. A panic has no text here. -/
def ScatterErr.text (w : Words) : ScatterErr → List Char
  | .noCandidates => "Scatter Search Error: No candidates left".toList
  | .noFeasibleCandidates a d => "Scatter Search Error: No feasible candidates found after ".toList ++ w.nat a ++
      " attempts (problem dimension: ".toList ++ w.nat d ++ ")".toList
  | .evaluation e => "Scatter Search Error: Evaluation failed during ".toList ++ "evaluation".toList ++ ": ".toList ++
      w.eval e
  | .invalidBounds d l u => "Scatter Search Error: Invalid bounds for variable ".toList ++ w.nat d ++
      ": lower=".toList ++ w.float l ++ ", upper=".toList ++ w.float u ++
      ". Lower bound must be < upper bound.".toList
  | .panic => []

/-- `Display` of `LocalSolverError`: src/local_solver/runner.rs 92-119. `solver_type` is `"unknown"` wherever such an
error is made (279, 289, 354, …, 1039), and `iterations` is 0. A panic has no text here. -/
def LErr.text (w : Words) : LErr → List Char
  | .invalidLBFGS => "Local Solver Error: Invalid LocalSolverConfig for L-BFGS solver. ".toList ++
      w.reason .invalidLBFGS
  | .invalidNelderMead => "Local Solver Error: Invalid LocalSolverConfig for Nelder-Mead solver. ".toList ++
      w.reason .invalidNelderMead
  | .invalidSteepestDescent => "Local Solver Error: Invalid LocalSolverConfig for Steepest Descent solver. ".toList ++
      w.reason .invalidSteepestDescent
  | .invalidTrustRegion => "Local Solver Error: Invalid LocalSolverConfig for Trust Region solver. ".toList ++
      w.reason .invalidTrustRegion
  | .invalidNewtonCG => "Local Solver Error: Invalid LocalSolverConfig for Newton-CG method solver. ".toList ++
      w.reason .invalidNewtonCG
  | .invalidCOBYLA => "Local Solver Error: Invalid LocalSolverConfig for COBYLA solver. ".toList ++
      w.reason .invalidCOBYLA
  | .runFailed => "Local Solver Error: ".toList ++ "unknown".toList ++ " failed to run: ".toList ++
      w.reason .runFailed
  | .noSolution => "Local Solver Error: ".toList ++ "unknown".toList ++ " found no solution after ".toList ++
      w.nat 0 ++ " iterations".toList
  | .panicked => []

/-- `Display` of `CheckpointError`: src/checkpoint.rs 116-151. -/
def CkErr.text (w : Words) : CkErr → List Char
  | .io => "IO error during ".toList ++ w.detail .io
  | .serialization => "Serialization error during ".toList ++ w.detail .serialization
  | .notFound => "Checkpoint file not found at: ".toList ++ w.detail .notFound
  | .invalid => "Invalid checkpoint data in '".toList ++ w.detail .invalid
  | .directory => "Failed to create checkpoint directory '".toList ++ w.detail .directory

/-- `Display` of `OQNLPError`: src/oqnlp.rs 156-217. The stage of a failed evaluation is always `"unknown"`: 1677,
1810. A panic has no text here. -/
def Err.text (w : Words) : Err → List Char
  | .localSolver e => "OQNLP Error: Local solver failed: ".toList ++ e.text w
  | .noFeasibleSolution k => "OQNLP Error: No feasible solution found after evaluating ".toList ++ w.nat k ++
      " candidates.".toList
  | .objectiveFailed => "OQNLP Error: Objective function evaluation failed during ".toList ++ "unknown".toList ++
      ".".toList
  | .scatterNew e => "OQNLP Error: Failed to create a new ScatterSearch instance: ".toList ++ e.text w
  | .scatterRun e => "OQNLP Error: Failed to run the ScatterSearch instance: ".toList ++ e.text w
  | .invalidPopulationSize p => "OQNLP Error: Population size should be at least 3, got ".toList ++ w.nat p ++
      ". Reference Set size should be at least 3, since it pushes the bounds and the midpoint.".toList
  | .invalidIterations i p =>
      "OQNLP Error: Iterations should be less than or equal to population size. OQNLP received `iterations`: ".toList ++
      w.nat i ++ ", `population size`: ".toList ++ w.nat p ++ ".".toList
  | .distanceFilter e => "OQNLP Error: Failed to create distance filter: ".toList ++ e.text w
  | .invalidThresholdFactor t => "OQNLP Error: Threshold factor must be positive, got ".toList ++ w.float t ++
      ".".toList
  | .customDimension i e g => "OQNLP Error: Custom point at index ".toList ++ w.nat i ++
      " has invalid dimension. Expected ".toList ++ w.nat e ++ " dimensions, got ".toList ++ w.nat g ++ ".".toList
  | .customOutOfBounds i => "OQNLP Error: Custom point at index ".toList ++ w.nat i ++
      " is outside variable bounds.".toList
  | .checkpoint e => "OQNLP Error: Checkpointing error: ".toList ++ e.text w
  | .panic => []

end GS
