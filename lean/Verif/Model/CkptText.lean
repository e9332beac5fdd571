/- The text of a checkpoint: `Display` of `OQNLPCheckpoint`, src/types.rs 734-778. -/
import Verif.Model.Bincode
import Verif.Model.SolutionSet

namespace GS

/-- Formatting by the standard library: the format arguments of src/types.rs 736-775. -/
structure CkptWords where
  /-- `{}` of `usize` and `u64` -/
  nat : Nat → List Char
  /-- `{}` of `f64` -/
  disp : F64 → List Char
  /-- `{:.2}` of `f64` -/
  fix2 : F64 → List Char
  /-- `{:.8e}` of `f64` -/
  sci8 : F64 → List Char
  /-- `{:.2e}` of `f64` -/
  sci2 : F64 → List Char

/-- `{:?}` of `LocalSolverType`: src/types.rs 456-492 (derived), 764. -/
def SolverType.debug : SolverType → List Char
  | .lbfgs => "LBFGS".toList
  | .nelderMead => "NelderMead".toList
  | .steepestDescent => "SteepestDescent".toList
  | .trustRegion => "TrustRegion".toList
  | .newtonCG => "NewtonCG".toList
  | .cobyla => "COBYLA".toList

/-- `{}` of `bool`: src/types.rs 773. -/
def boolText (b : Bool) : List Char := if b then "true".toList else "false".toList

/-- The lines on the solution set: src/types.rs 746-753. -/
def WCkpt.setLines (w : CkptWords) (c : WCkpt) : List (List Char) :=
  match c.solutionSet with
  | some l =>
    ("Solution set: ".toList ++ (w.nat l.length ++ " solutions".toList)) ::
      (match reduceSeq (minOp WSol.objective) l with
        | some b => ["Best objective: ".toList ++ w.sci8 b.objective]
        | none => [])
  | none => ["Solution set: None".toList]

/-- The line on the target: src/types.rs 767-771. -/
def WCkpt.targetLine (w : CkptWords) (c : WCkpt) : List Char :=
  match c.targetObjective with
  | some t => "  Target objective: ".toList ++ w.sci8 t
  | none => "  Target objective: None".toList

/-- `Display` of a checkpoint as lines: src/types.rs 734-778. A timestamp with a newline is one line here. -/
def WCkpt.text (w : CkptWords) (c : WCkpt) : List (List Char) :=
  ["━━━━━━━━━━━ OQNLP Checkpoint ━━━━━━━━━━━".toList,
    "Timestamp: ".toList ++ c.timestamp.toList,
    "Current iteration: ".toList ++ w.nat c.currentIteration,
    "Elapsed time: ".toList ++ (w.fix2 c.elapsedTime ++ "s".toList),
    "Unchanged cycles: ".toList ++ w.nat c.unchangedCycles,
    "Merit threshold: ".toList ++ w.sci8 c.meritThreshold,
    "Reference set size: ".toList ++ w.nat c.referenceSet.length,
    "Distance filter solutions: ".toList ++ w.nat c.distanceFilterSolutions.length,
    "Current seed: ".toList ++ w.nat c.currentSeed] ++
  (c.setLines w ++
  ["Parameters:".toList,
    "  Population size: ".toList ++ w.nat c.params.populationSize,
    "  Iterations: ".toList ++ w.nat c.params.iterations,
    "  Wait cycle: ".toList ++ w.nat c.params.waitCycle,
    "  Threshold factor: ".toList ++ w.disp c.params.thresholdFactor,
    "  Distance factor: ".toList ++ w.disp c.params.distanceFactor,
    "  Local solver: ".toList ++ c.params.solverType.debug,
    "  Seed: ".toList ++ w.nat c.params.seed,
    c.targetLine w,
    "  Exclude out of bounds: ".toList ++ boolText c.excludeOutOfBounds,
    "  Absolute tolerance: ".toList ++ w.sci2 c.absTol,
    "  Relative tolerance: ".toList ++ w.sci2 c.relTol,
    "━━━━━━━━━━━━━━━━━━━━━━━━━━━━━━━━━━━━━━━".toList])

end GS
