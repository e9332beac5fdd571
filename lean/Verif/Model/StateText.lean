/- The texts of the observer states of the Python module: python/src/observers.rs 108-129, 261-288. -/
import Verif.Model.Observer

namespace GS

/-- Formatting by the standard library: the format arguments of python/src/observers.rs 108-129, 261-288. -/
structure StateWords where
  /-- `{}` of `usize` -/
  nat : Nat → List Char
  /-- `{:.6}` of `f64` -/
  fix6 : F64 → List Char
  /-- `{:.6e}` of `f64` -/
  sci6 : F64 → List Char
  /-- `{:.3}` of a duration in seconds -/
  secs : Nat → List Char

/-- The name of a substage: src/observers/stage1.rs 111, src/scatter_search.rs 260, 268, 298, src/oqnlp.rs 753, 773, 799,
823, 849; `scatterSearchRunning` occurs only in the callbacks (src/observers/mod.rs 669, 795). -/
def Substage.name : Substage → List Char
  | .notStarted => "not_started".toList
  | .initializationComplete => "initialization_complete".toList
  | .diversificationComplete => "diversification_complete".toList
  | .intensificationComplete => "intensification_complete".toList
  | .scatterSearchRunning => "scatter_search_running".toList
  | .scatterSearchComplete => "scatter_search_complete".toList
  | .localOptimization => "local_optimization".toList
  | .localOptimizationComplete => "local_optimization_complete".toList
  | .stage1Complete => "stage1_complete".toList

variable {n : Nat}

/-- `PyStage1State.__repr__`: python/src/observers.rs 108-117. -/
def Stage1.repr (w : StateWords) (s : Stage1 n) : List Char :=
  "PyStage1State(reference_set_size=".toList ++ (w.nat s.refSetSize ++
    (", best_objective=".toList ++ (w.fix6 s.bestObjective ++
      (", current_substage='".toList ++ (s.substage.name ++
        ("', function_evaluations=".toList ++ (w.nat s.functionEvaluations ++
          (", trial_points_generated=".toList ++ (w.nat s.trialPoints ++ ")".toList)))))))))

/-- `PyStage1State.__str__` as lines: python/src/observers.rs 119-129. -/
def Stage1.str (w : StateWords) (s : Stage1 n) (now : Nat) : List (List Char) :=
  ["Stage 1 State".toList,
    "━━━━━━━━━━━━━━━━━━━━━━━━━━━━━━━━━━━━".toList,
    "Reference Set Size: ".toList ++ w.nat s.refSetSize,
    "Best Objective: ".toList ++ w.sci6 s.bestObjective,
    "Current Substage: ".toList ++ s.substage.name,
    "Function Evaluations: ".toList ++ w.nat s.functionEvaluations,
    "Trial Points Generated: ".toList ++ w.nat s.trialPoints,
    "Total Time: ".toList ++ (w.secs ((s.totalTime now).getD 0) ++ "s".toList)]

/-- `PyStage2State.__repr__`: python/src/observers.rs 261-273. -/
def Stage2.repr (w : StateWords) (s : Stage2 n) : List Char :=
  "PyStage2State(best_objective=".toList ++ (w.fix6 s.bestObjective ++
    (", solution_set_size=".toList ++ (w.nat s.solutionSetSize ++
      (", current_iteration=".toList ++ (w.nat s.iteration ++
        (", threshold_value=".toList ++ (w.fix6 s.threshold ++
          (", local_solver_calls=".toList ++ (w.nat s.localCalls ++
            (", improved_local_calls=".toList ++ (w.nat s.improvedCalls ++
              (", function_evaluations=".toList ++ (w.nat s.functionEvaluations ++
                (", unchanged_cycles=".toList ++ (w.nat s.unchangedCycles ++ ")".toList)))))))))))))))

/-- `PyStage2State.__str__` as lines: python/src/observers.rs 275-288. -/
def Stage2.str (w : StateWords) (s : Stage2 n) (now : Nat) : List (List Char) :=
  ["Stage 2 State".toList,
    "━━━━━━━━━━━━━━━━━━━━━━━━━━━━━━━━━━━━".toList,
    "Best Objective: ".toList ++ w.sci6 s.bestObjective,
    "Solution Set Size: ".toList ++ w.nat s.solutionSetSize,
    "Current Iteration: ".toList ++ w.nat s.iteration,
    "Threshold Value: ".toList ++ w.sci6 s.threshold,
    "Local Solver Calls: ".toList ++ w.nat s.localCalls,
    "Improved Calls: ".toList ++ w.nat s.improvedCalls,
    "Function Evaluations: ".toList ++ w.nat s.functionEvaluations,
    "Unchanged Cycles: ".toList ++ w.nat s.unchangedCycles,
    "Total Time: ".toList ++ (w.secs ((s.totalTime now).getD 0) ++ "s".toList)]

end GS
