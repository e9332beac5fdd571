/- Data types of the library: points, parameters, solutions, errors. -/
import Verif.F64.Basic

namespace GS

/-- A point `Array1<f64>` of dimension `n`.  (All arrays combined arithmetically in the library
have the dimension of the problem; ndarray's shape-mismatch panic is outside the model.) -/
abbrev Pt (n : Nat) := Fin n → F64

instance {n : Nat} : DecidableEq (Pt n) := fun a b =>
  decidable_of_iff (∀ i, a i = b i) ⟨funext, fun h i => by rw [h]⟩

/-- Eight-lane accumulation of ndarray's `unrolled_dot` (dependency `ndarray`, used by `diff.dot(&diff)`):
`p0..p7` are the partial sums, the tail is added one by one: src/filters.rs 249-252, src/scatter_search.rs
891-907, src/oqnlp.rs 1171-1180. -/
def sum8Aux (p0 p1 p2 p3 p4 p5 p6 p7 : F64) : List F64 → F64
  | a0 :: a1 :: a2 :: a3 :: a4 :: a5 :: a6 :: a7 :: rest =>
    sum8Aux (p0.add a0) (p1.add a1) (p2.add a2) (p3.add a3) (p4.add a4) (p5.add a5) (p6.add a6)
      (p7.add a7) rest
  | rest =>
    rest.foldl F64.add
      ((((F64.zero.add (p0.add p4)).add (p1.add p5)).add (p2.add p6)).add (p3.add p7))

/-- Sum of a list of products in the order used by `dot`: src/filters.rs 249-252, src/scatter_search.rs
891-907, src/oqnlp.rs 1171-1180. -/
def sum8 (l : List F64) : F64 :=
  sum8Aux F64.zero F64.zero F64.zero F64.zero F64.zero F64.zero F64.zero F64.zero l

/-- `euclidean_distance_squared`: src/filters.rs 249-252 and src/scatter_search.rs 891-894
(`let diff = a - b; diff.dot(&diff)`). -/
def dist2 {n : Nat} (a b : Pt n) : F64 :=
  sum8 (List.ofFn fun i => let d := (a i).sub (b i); d.mul d)

/-- `LocalSolverType`: src/types.rs 457-492 (all variants, i.e. with feature `argmin`). -/
inductive SolverType where
  | lbfgs | nelderMead | steepestDescent | trustRegion | newtonCG | cobyla
deriving DecidableEq, Repr

/-- `LineSearchMethod`: src/local_solver/builders.rs 1173-1189. -/
inductive LineSearchMethod where
  | moreThuente (c1 c2 widthTolerance : F64) (bounds : List F64)
  | hagerZhang (delta sigma epsilon theta gamma eta : F64) (bounds : List F64)
deriving DecidableEq

/-- `TrustRegionRadiusMethod`: src/local_solver/builders.rs 67-70. -/
inductive TrustRegionRadiusMethod where
  | cauchy | steihaug
deriving DecidableEq, Repr

/-- `LocalSolverConfig`: src/local_solver/builders.rs 76-190 (`u64`/`usize` as `Nat`;
`LineSearchParams` (1197-1200) is a one-field wrapper and is identified with its field). -/
inductive SolverConfig where
  | lbfgs (maxIter : Nat) (toleranceGrad toleranceCost : F64) (historySize : Nat)
      (l1Coefficient : Option F64) (lineSearch : LineSearchMethod)
  | nelderMead (simplexDelta sdTolerance : F64) (maxIter : Nat) (alpha gamma rho sigma : F64)
  | steepestDescent (maxIter : Nat) (lineSearch : LineSearchMethod)
  | trustRegion (method : TrustRegionRadiusMethod) (maxIter : Nat) (radius maxRadius eta : F64)
  | newtonCG (maxIter : Nat) (curvatureThreshold tolerance : F64) (lineSearch : LineSearchMethod)
  | cobyla (maxIter : Nat) (initialStepSize ftolRel ftolAbs xtolRel : F64) (xtolAbs : List F64)
deriving DecidableEq

/-- `OQNLPParams`: src/types.rs 59-97. -/
structure Params where
  iterations : Nat
  populationSize : Nat
  waitCycle : Nat
  thresholdFactor : F64
  distanceFactor : F64
  solverType : SolverType
  solverConfig : SolverConfig
  seed : Nat
deriving DecidableEq

/-- `LocalSolution`: src/types.rs 214-219. -/
structure Sol (n : Nat) where
  point : Pt n
  objective : F64
deriving DecidableEq

/-- `FilterParams`: src/types.rs 160-178. -/
structure FilterParams where
  distanceFactor : F64
  waitCycle : Nat
  thresholdFactor : F64
deriving DecidableEq

/-- Evaluation errors (`EvaluationError`, src/types.rs 526-590), kept abstract as a code. -/
structure EvalErr where
  code : Nat
deriving DecidableEq, Repr

/-- `LocalSolverError`: src/local_solver/runner.rs 91-120 (reason texts dropped). -/
inductive LErr where
  | invalidLBFGS | invalidNelderMead | invalidSteepestDescent | invalidTrustRegion
  | invalidNewtonCG | invalidCOBYLA | runFailed | noSolution
  /-- panic inside `solve` (e.g. `bounds[0]` on an empty vector) -/
  | panicked
deriving DecidableEq, Repr

/-- Kinds of `CheckpointError`: src/checkpoint.rs 112-152 (paths and reasons dropped). -/
inductive CkErr where
  | io | serialization | notFound | invalid | directory
deriving DecidableEq, Repr

/-- `CheckpointConfig`: src/types.rs 601-616 (the directory is the directory model itself). -/
structure CkptConfig where
  name : String
  saveFrequency : Nat
  keepAll : Bool
  autoResume : Bool
deriving DecidableEq

/-- `OQNLPCheckpoint`: src/types.rs 642-699 (with feature `rayon`). -/
structure Ckpt (n : Nat) where
  params : Params
  currentIteration : Nat
  meritThreshold : F64
  solutionSet : Option (List (Sol n))
  referenceSet : List (Pt n)
  unchangedCycles : Nat
  elapsedTime : F64
  distanceFilterSolutions : List (Sol n)
  currentSeed : Nat
  targetObjective : Option F64
  excludeOutOfBounds : Bool
  batchIterations : Option Nat
  enableParallel : Bool
  absTol : F64
  relTol : F64
  timestamp : String
deriving DecidableEq

/-- The user's problem (`Problem` trait, src/problem.rs 110-183): objective, bounds (columns 0 and
1 of `variable_bounds`) and constraint functions.  Each is a function of the point, i.e. the user
code is assumed deterministic.  Gradient and Hessian are only seen by the local solver. -/
structure Problem (n : Nat) where
  objective : Pt n → Except EvalErr F64
  lower : Pt n
  upper : Pt n
  constraints : List (Pt n → F64)

end GS
