/- The local solver of a run is the local solver runner: how `OQNLP` uses `LocalSolver`.

Model/Oqnlp.lean leaves the local solver free (`Env.solve`); Model/Runner.lean models
src/local_solver/runner.rs.  Here the two are connected. -/
import Verif.Model.Oqnlp
import Verif.Model.Runner

namespace GS.Runner
variable {n : Nat}

/-- A point as the `Array1<f64>` passed to the local solver: src/oqnlp.rs 778-784, 1693-1704, 1906-1911,
1998-2010. -/
def vec (x : Pt n) : Vec := List.ofFn x

/-- The runner's problem is the optimizer's problem: the same `Problem` object is given to both
(src/oqnlp.rs 468-472, 1900-1904).  On points of the problem's dimension the functions agree, and the rows of
`variable_bounds` hold the lower and upper bounds. -/
structure Views (p : Problem n) (q : Prob) : Prop where
  objective : ∀ x, q.objective (vec x) = p.objective x
  bounds : q.bounds = List.ofFn fun i => [p.lower i, p.upper i]
  constraints : ∀ x, q.constraints.map (fun g => g (vec x)) = p.constraints.map fun g => g x

/-- The `LocalSolution` of a search as a solution of the run.  Points of another length than the problem's
dimension have no counterpart in the run's model and appear as a panic: src/local_solver/runner.rs (result
of `solve`), src/types.rs 214-219. -/
def toSol : Except LErr ((Vec × F64) × Nat) → Except LErr (Sol n × Nat)
  | .error e => .error e
  | .ok ((v, c), k) =>
    match Opt.rowPt (n := n) v with
    | some x => .ok (⟨x, c⟩, k)
    | none => .error .panicked

/-- `LocalSolver::new(problem, type, config).solve_with_tracking(point, true)`; a run whose observer does not
count calls it with `false`, which only changes the count (C63). -/
def solver (lib : Lib) (q : Prob) (ty : SolverType) (cfg : SolverConfig) (x : Pt n) :
    Except LErr (Sol n × Nat) :=
  toSol (solveWithTracking lib q ty cfg (vec x) true).result

/-- The environment of a run whose local solver is the runner, with the solver crates `lib`: the calls of
the local solver at src/oqnlp.rs 779-795, 1692-1704, 1892-1925, 1997-2009. -/
def Uses (env : Env n) (lib : Lib) (q : Prob) : Prop := env.solve = solver lib q

end GS.Runner
