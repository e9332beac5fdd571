/- The local solver runner: src/local_solver/runner.rs.

The numerical solvers themselves are crates (`argmin`, `cobyla`).  They enter the model as an arbitrary
`Lib`: which settings their constructors accept, and for every constructed solver a finite interaction
`Tree` that asks for evaluations and ends with a result.  Every theorem holds for all libraries. -/
import Verif.Model.Types

namespace GS.Runner

/-- A dynamically sized `Array1<f64>`, `Vec<f64>` or `&[f64]`. -/
abbrev Vec := List F64

/-- The `Problem` trait as the runner sees it, src/problem.rs 110-183.  Points are of any length here, and
`variable_bounds` is a list of rows, because the runner checks dimensions itself (runner.rs 1001-1013). -/
structure Prob where
  objective : Vec → Except EvalErr F64
  gradient : Vec → Except EvalErr Vec
  hessian : Vec → Except EvalErr (List Vec)
  bounds : List Vec
  constraints : List (Vec → F64)

/-- Codes of `EvaluationError::GradientNotImplemented` and `HessianNotImplemented`: src/types.rs 547-553. -/
def gradientNotImplemented : EvalErr := ⟨4⟩
/-- See `gradientNotImplemented`: src/types.rs 551-553. -/
def hessianNotImplemented : EvalErr := ⟨5⟩

/-- The default methods of the `Problem` trait: src/problem.rs 122-124, 132-134, 180-182. -/
def defaultGradient (_ : Vec) : Except EvalErr Vec := .error gradientNotImplemented
/-- See `defaultGradient`: src/problem.rs 132-134. -/
def defaultHessian (_ : Vec) : Except EvalErr (List Vec) := .error hessianNotImplemented
/-- See `defaultGradient`: src/problem.rs 180-182. -/
def defaultConstraints : List (Vec → F64) := []

/-- An evaluation of the user's problem: src/problem.rs 110-183 as called by the solvers started in
src/local_solver/runner.rs (dependencies `argmin`, `cobyla`). -/
inductive Query where
  | cost (x : Vec)
  | gradient (x : Vec)
  | hessian (x : Vec)
  | constraint (i : Nat) (x : Vec)
deriving DecidableEq

/-- What an argmin solver does with the problem: it asks for evaluations and continues with the answers
(its evaluations use `?`, so an evaluation error ends the run), and ends with `best_param`, `best_cost` or
an error of its own.  Runs that never end are not modelled: src/problem.rs 110-183 as called by the
solvers started in src/local_solver/runner.rs (dependencies `argmin`, `cobyla`). -/
inductive Tree where
  | done (best : Option Vec) (cost : F64)
  | fail
  | cost (x : Vec) (k : F64 → Tree)
  | gradient (x : Vec) (k : Vec → Tree)
  | hessian (x : Vec) (k : List Vec → Tree)

/-- What `cobyla::minimize` does with the objective closure and the constraint functions: src/problem.rs
110-183 as called by the solvers started in src/local_solver/runner.rs (dependencies `argmin`, `cobyla`). -/
inductive CTree where
  | done (x : Vec) (cost : F64)
  | fail
  | cost (x : Vec) (k : F64 → CTree)
  | constraint (i : Nat) (x : Vec) (k : F64 → CTree)

/-- The calls by which the runner constructs argmin line searches and solvers:
src/local_solver/runner.rs 193-955. -/
inductive Call where
  | moreThuente
  | withC (c1 c2 : F64)
  | withBounds (lo hi : F64)
  | withWidthTolerance (w : F64)
  | hagerZhang
  | withDeltaSigma (delta sigma : F64)
  | withEpsilon (e : F64)
  | withTheta (t : F64)
  | withGamma (g : F64)
  | withEta (e : F64)
  | lbfgs (history : Nat)
  | withToleranceCost (t : F64)
  | withToleranceGrad (t : F64)
  | withL1 (c : F64)
  | nelderMead (simplex : List Vec)
  | withSdTolerance (t : F64)
  | withAlpha (a : F64)
  | withRho (r : F64)
  | withSigma (s : F64)
  | steepestDescent
  | trustRegion (method : TrustRegionRadiusMethod)
  | withRadius (r : F64)
  | withMaxRadius (r : F64)
  | newtonCG
  | withCurvatureThreshold (c : F64)
  | withTolerance (t : F64)
deriving DecidableEq

/-- Arguments of `cobyla::minimize` other than the functions: src/local_solver/runner.rs 1015-1028. -/
structure Cobyla where
  x0 : Vec
  bounds : List (F64 × F64)
  maxEval : Nat
  rhoBeg : F64
  ftolRel : F64
  ftolAbs : F64
  xtolRel : F64
  xtolAbs : Vec
deriving DecidableEq

/-- The solver crates: dependencies `argmin`, `cobyla` of src/local_solver/runner.rs 193-1055. -/
structure Lib where
  /-- whether a fallible `with_...` call is accepted, given the calls made before on the same object -/
  accepts : List Call → Call → Bool
  /-- `Executor::new(cost, solver).configure(|s| s.param(x0).max_iters(m)).run()` -/
  run : List Call → Option Vec → Nat → Tree
  /-- `cobyla::minimize` with that many constraint functions -/
  minimize : Cobyla → Nat → CTree

/-- Result of a local search: point, objective and number of evaluations, or an error; and the evaluations
made, in order: src/local_solver/runner.rs 151-191. -/
structure Res where
  result : Except LErr ((Vec × F64) × Nat)
  queries : List Query

/-- The error of a solver type whose configuration is unusable: src/local_solver/runner.rs 91-114. -/
def invalid : SolverType → LErr
  | .lbfgs => .invalidLBFGS
  | .nelderMead => .invalidNelderMead
  | .steepestDescent => .invalidSteepestDescent
  | .trustRegion => .invalidTrustRegion
  | .newtonCG => .invalidNewtonCG
  | .cobyla => .invalidCOBYLA

/-- A fallible setter with `.map_err(...)?`, e.g. src/local_solver/runner.rs 246-249. -/
def step (lib : Lib) (e : LErr) (c : Call) (s : List Call) : Except LErr (List Call) :=
  if lib.accepts s c then .ok (s ++ [c]) else .error e

/-- `bounds[0], bounds[1]`, which panic if the array is too short: e.g. src/local_solver/runner.rs 250. -/
def idx2 : Vec → Except LErr (F64 × F64)
  | lo :: hi :: _ => .ok (lo, hi)
  | _ => .error .panicked

/-- Construction of the line search: src/local_solver/runner.rs 244-257 and 299-332 (L-BFGS), 529-542 and
570-603 (steepest descent), 843-856 and 889-922 (Newton-CG; the code is the same up to the error). -/
def lineSearch (lib : Lib) (e : LErr) : LineSearchMethod → Except LErr (List Call)
  | .moreThuente c1 c2 w b => do
    let s ← step lib e (.withC c1 c2) [.moreThuente]
    let (lo, hi) ← idx2 b
    let s ← step lib e (.withBounds lo hi) s
    step lib e (.withWidthTolerance w) s
  | .hagerZhang delta sigma epsilon theta gamma eta b => do
    let s ← step lib e (.withDeltaSigma delta sigma) [.hagerZhang]
    let s ← step lib e (.withEpsilon epsilon) s
    let s ← step lib e (.withTheta theta) s
    let s ← step lib e (.withGamma gamma) s
    let s ← step lib e (.withEta eta) s
    let (lo, hi) ← idx2 b
    step lib e (.withBounds lo hi) s

/-- A constructed solver, its start point (`none` for Nelder-Mead, which has its simplex) and the maximal
number of iterations: src/local_solver/runner.rs 193-1055. -/
structure Setup where
  calls : List Call
  param : Option Vec
  maxIter : Nat
deriving DecidableEq

/-- `if let Some(l1_coeff) = l1_coefficient`: src/local_solver/runner.rs 269-273. -/
def l1Step (lib : Lib) (l1 : Option F64) (s : List Call) : Except LErr (List Call) :=
  match l1 with
  | some c => step lib .invalidLBFGS (.withL1 c) s
  | none => .ok s

/-- L-BFGS: src/local_solver/runner.rs 232-380. -/
def setupLbfgs (lib : Lib) (x0 : Vec) : SolverConfig → Except LErr Setup
  | .lbfgs maxIter tolGrad tolCost history l1 ls => do
    let s ← lineSearch lib .invalidLBFGS ls
    let s := s ++ [.lbfgs history]
    let s ← step lib .invalidLBFGS (.withToleranceCost tolCost) s
    let s ← step lib .invalidLBFGS (.withToleranceGrad tolGrad) s
    let s ← l1Step lib l1 s
    return ⟨s, some x0, maxIter⟩
  | _ => .error .invalidLBFGS

/-- The vertices `point[i] += simplex_delta`: src/local_solver/runner.rs 425-431. -/
def simplex (x0 : Vec) (delta : F64) : List Vec :=
  x0 :: (List.range x0.length).map fun i => x0.modify i (·.add delta)

/-- Nelder-Mead: src/local_solver/runner.rs 414-482. -/
def setupNelderMead (lib : Lib) (x0 : Vec) : SolverConfig → Except LErr Setup
  | .nelderMead delta sd maxIter alpha gamma rho sigma => do
    let s := [.nelderMead (simplex x0 delta)]
    let s ← step lib .invalidNelderMead (.withSdTolerance sd) s
    let s ← step lib .invalidNelderMead (.withAlpha alpha) s
    let s ← step lib .invalidNelderMead (.withGamma gamma) s
    let s ← step lib .invalidNelderMead (.withRho rho) s
    let s ← step lib .invalidNelderMead (.withSigma sigma) s
    return ⟨s, none, maxIter⟩
  | _ => .error .invalidNelderMead

/-- Steepest descent: src/local_solver/runner.rs 526-637. -/
def setupSteepest (lib : Lib) (x0 : Vec) : SolverConfig → Except LErr Setup
  | .steepestDescent maxIter ls => do
    let s ← lineSearch lib .invalidSteepestDescent ls
    return ⟨s ++ [.steepestDescent], some x0, maxIter⟩
  | _ => .error .invalidSteepestDescent

/-- Trust region: src/local_solver/runner.rs 690-783. -/
def setupTrust (lib : Lib) (x0 : Vec) : SolverConfig → Except LErr Setup
  | .trustRegion method maxIter radius maxRadius eta => do
    let s := [.trustRegion method]
    let s ← step lib .invalidTrustRegion (.withRadius radius) s
    let s ← step lib .invalidTrustRegion (.withMaxRadius maxRadius) s
    let s ← step lib .invalidTrustRegion (.withEta eta) s
    return ⟨s, some x0, maxIter⟩
  | _ => .error .invalidTrustRegion

/-- Newton-CG: src/local_solver/runner.rs 835-956.  A rejected line-search setting is reported as an invalid
steepest descent configuration; with the Hager-Zhang line search curvature threshold and tolerance are
not passed on (line 924). -/
def setupNewton (lib : Lib) (x0 : Vec) : SolverConfig → Except LErr Setup
  | .newtonCG maxIter curvature tol (.moreThuente c1 c2 w b) => do
    let s ← lineSearch lib .invalidSteepestDescent (.moreThuente c1 c2 w b)
    let s := s ++ [.newtonCG, .withCurvatureThreshold curvature]
    let s ← step lib .invalidNewtonCG (.withTolerance tol) s
    return ⟨s, some x0, maxIter⟩
  | .newtonCG maxIter _ _ (.hagerZhang delta sigma epsilon theta gamma eta b) => do
    let s ← lineSearch lib .invalidSteepestDescent (.hagerZhang delta sigma epsilon theta gamma eta b)
    return ⟨s ++ [.newtonCG], some x0, maxIter⟩
  | _ => .error .invalidNewtonCG

/-- `eval_count`: `Some(0)` if evaluations are tracked, e.g. src/local_solver/runner.rs 229.  (The counter
is an `AtomicU64`; its wrap-around is not modelled.) -/
def counter (track : Bool) : Option Nat := if track then some 0 else none

/-- Run of an argmin solver with the cost function of src/local_solver/runner.rs 208-227: the counter is
increased before the objective is called, and evaluation errors become argmin errors, i.e. `RunFailed`
(280-286); a run without `best_param` is `NoSolution` (288-297). -/
def Tree.exec (p : Prob) : Tree → Option Nat → Except LErr (Vec × F64) × Option Nat × List Query
  | .done none _, k => (.error .noSolution, k, [])
  | .done (some x) c, k => (.ok (x, c), k, [])
  | .fail, k => (.error .runFailed, k, [])
  | .cost x f, k =>
    match p.objective x with
    | .error _ => (.error .runFailed, k.map (· + 1), [.cost x])
    | .ok v =>
      let r := (f v).exec p (k.map (· + 1))
      (r.1, r.2.1, .cost x :: r.2.2)
  | .gradient x f, k =>
    match p.gradient x with
    | .error _ => (.error .runFailed, k, [.gradient x])
    | .ok v =>
      let r := (f v).exec p k
      (r.1, r.2.1, .gradient x :: r.2.2)
  | .hessian x f, k =>
    match p.hessian x with
    | .error _ => (.error .runFailed, k, [.hessian x])
    | .ok v =>
      let r := (f v).exec p k
      (r.1, r.2.1, .hessian x :: r.2.2)

/-- The end of the argmin branches: run the constructed solver and return the solution and
`eval_count.map(load).unwrap_or(0)`, e.g. src/local_solver/runner.rs 280-298. -/
def execute (lib : Lib) (p : Prob) (track : Bool) : Except LErr Setup → Res
  | .error e => ⟨.error e, []⟩
  | .ok s =>
    let r := (lib.run s.calls s.param s.maxIter).exec p (counter track)
    ⟨r.1.map fun q => (q, r.2.1.getD 0), r.2.2⟩

/-- COBYLA's objective closure, `unwrap_or(f64::INFINITY)`: src/local_solver/runner.rs 990-997. -/
def cobylaCost (p : Prob) (x : Vec) : F64 :=
  match p.objective x with
  | .ok v => v
  | .error _ => F64.inf

/-- Run of COBYLA with that closure, which increases the counter (991-993), and the problem's constraint functions; a constraint index out of range does not occur. -/
def CTree.exec (p : Prob) : CTree → Option Nat → Except LErr (Vec × F64) × Option Nat × List Query
  | .done x c, k => (.ok (x, c), k, [])
  | .fail, k => (.error .runFailed, k, [])
  | .cost x f, k =>
    let r := (f (cobylaCost p x)).exec p (k.map (· + 1))
    (r.1, r.2.1, .cost x :: r.2.2)
  | .constraint i x f, k =>
    match p.constraints[i]? with
    | none => (.error .panicked, k, [])
    | some g =>
      let r := (f (g x)).exec p k
      (r.1, r.2.1, .constraint i x :: r.2.2)

/-- `(0..n).map(|i| (b[[i, 0]], b[[i, 1]]))`, which panics if there are fewer than two columns:
src/local_solver/runner.rs 1012-1013. -/
def rowBounds : List Vec → Except LErr (List (F64 × F64))
  | [] => .ok []
  | r :: rs => do
    let b ← idx2 r
    let bs ← rowBounds rs
    return b :: bs

/-- COBYLA's arguments: src/local_solver/runner.rs 971-1028 (`max_iter as usize` is the identity on 64-bit
targets). -/
def setupCobyla (p : Prob) (x0 : Vec) : SolverConfig → Except LErr Cobyla
  | .cobyla maxIter initialStep ftolRel ftolAbs xtolRel xtolAbs =>
    if p.bounds.length ≠ x0.length then .error .invalidCOBYLA
    else do
      let bs ← rowBounds p.bounds
      return ⟨x0, bs, maxIter, initialStep, ftolRel, ftolAbs, xtolRel,
        if xtolAbs.isEmpty then [] else xtolAbs⟩
  | _ => .error .invalidCOBYLA

/-- `solve_cobyla`: src/local_solver/runner.rs 959-1048. -/
def solveCobyla (lib : Lib) (p : Prob) (track : Bool) (x0 : Vec) (cfg : SolverConfig) : Res :=
  match setupCobyla p x0 cfg with
  | .error e => ⟨.error e, []⟩
  | .ok s =>
    let r := (lib.minimize s p.constraints.length).exec p (counter track)
    ⟨r.1.map fun q => (q, r.2.1.getD 0), r.2.2⟩

/-- `solve_with_tracking`: src/local_solver/runner.rs 157-189. -/
def solveWithTracking (lib : Lib) (p : Prob) (ty : SolverType) (cfg : SolverConfig) (x0 : Vec)
    (track : Bool) : Res :=
  match ty with
  | .lbfgs => execute lib p track (setupLbfgs lib x0 cfg)
  | .nelderMead => execute lib p track (setupNelderMead lib x0 cfg)
  | .steepestDescent => execute lib p track (setupSteepest lib x0 cfg)
  | .trustRegion => execute lib p track (setupTrust lib x0 cfg)
  | .newtonCG => execute lib p track (setupNewton lib x0 cfg)
  | .cobyla => solveCobyla lib p track x0 cfg

/-- `solve`: src/local_solver/runner.rs 151-154 (result and evaluations made). -/
def solve (lib : Lib) (p : Prob) (ty : SolverType) (cfg : SolverConfig) (x0 : Vec) :
    Except LErr (Vec × F64) × List Query :=
  let r := solveWithTracking lib p ty cfg x0 false
  (r.result.map (·.1), r.queries)

end GS.Runner
