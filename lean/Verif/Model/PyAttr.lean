/- The attributes of observers and their states in the Python module: python/src/observers.rs 40-106, 151-259, 486-545. -/
import Verif.Model.PyChain
import Verif.Model.StateText

namespace GS

/-- The value of an attribute. Times are in the unit of the model's clock. -/
inductive AttrVal where
  | int (k : Nat)
  | float (x : F64)
  | str (s : List Char)
  | time (t : Option Nat)
  | point (p : Option (List F64))
  | bool (b : Bool)
deriving DecidableEq

variable {n : Nat}

/-- The attributes of `PyStage1State`: python/src/observers.rs 40-106. -/
def Stage1.attr (s : Stage1 n) (now : Nat) (name : String) : Option AttrVal :=
  if name = "reference_set_size" then some (.int s.refSetSize)
  else if name = "best_objective" then some (.float s.bestObjective)
  else if name = "current_substage" then some (.str s.substage.name)
  else if name = "total_time" then some (.time (s.totalTime now))
  else if name = "function_evaluations" then some (.int s.functionEvaluations)
  else if name = "trial_points_generated" then some (.int s.trialPoints)
  else if name = "best_point" then some (.point (s.bestPoint.map fun p => List.ofFn p))
  else none

/-- The attributes of `PyStage2State`: python/src/observers.rs 151-259. -/
def Stage2.attr (s : Stage2 n) (now : Nat) (name : String) : Option AttrVal :=
  if name = "best_objective" then some (.float s.bestObjective)
  else if name = "solution_set_size" then some (.int s.solutionSetSize)
  else if name = "current_iteration" then some (.int s.iteration)
  else if name = "threshold_value" then some (.float s.threshold)
  else if name = "local_solver_calls" then some (.int s.localCalls)
  else if name = "improved_local_calls" then some (.int s.improvedCalls)
  else if name = "function_evaluations" then some (.int s.functionEvaluations)
  else if name = "unchanged_cycles" then some (.int s.unchangedCycles)
  else if name = "total_time" then some (.time (s.totalTime now))
  else if name = "best_point" then some (.point (s.bestPoint.map fun p => List.ofFn p))
  else if name = "last_added_point" then some (.point (s.lastAdded.map fun p => List.ofFn p))
  else none

namespace Py

/-- The properties of `PyObserver`: python/src/observers.rs 511-545. -/
def PyObs.attr (o : PyObs n) (now : Nat) (name : String) : Option AttrVal :=
  if name = "should_observe_stage1" then some (.bool o.inner.should1)
  else if name = "should_observe_stage2" then some (.bool o.inner.should2)
  else if name = "is_timing_enabled" then some (.bool o.inner.trackTiming)
  else if name = "elapsed_time" then some (.time (o.inner.elapsedTime now))
  else none

/-- The methods of `PyObserver`: python/src/observers.rs 331-509. -/
def observerMethods : List String :=
  ["with_stage1_tracking", "with_stage2_tracking", "with_timing", "with_mode", "with_callback_frequency", "with_callback",
    "with_default_callback", "with_stage1_callback", "with_stage2_callback", "unique_updates", "stage1", "stage1_final",
    "stage2"]

end Py
end GS
