/- Python problems as problems of the Rust library: python/src/lib.rs 454-700. -/
import Verif.Model.Python
import Verif.Model.Runner

namespace GS.Py
open GS GS.Runner

/-- The code of `EvaluationError::InvalidInput`: src/types.rs 527-531. -/
def invalidInput : EvalErr := ⟨0⟩

/-- `PyProblem`: python/src/lib.rs 454-507.  A function gives `none` when the Python call raises or returns something
that cannot be converted.  The constraints are those of `PyRegistry` (C69), here as plain functions. -/
structure PyProblem where
  objective : Vec → Option F64
  bounds : Option (List Vec)
  gradient : Option (Vec → Option Vec) := none
  hessian : Option (Vec → Option (List Vec)) := none
  constraints : List (Vec → F64) := []

/-- `PyProblem::objective`: python/src/lib.rs 571-587. -/
def PyProblem.cost (p : PyProblem) (x : Vec) : Except EvalErr F64 :=
  match p.objective x with
  | some v => .ok v
  | none => .error invalidInput

/-- `PyProblem::gradient`: python/src/lib.rs 612-632. -/
def PyProblem.slope (p : PyProblem) (x : Vec) : Except EvalErr Vec :=
  match p.gradient with
  | none => .error gradientNotImplemented
  | some g =>
    match g x with
    | some v => .ok v
    | none => .error invalidInput

/-- `PyProblem::hessian`: python/src/lib.rs 634-659. -/
def PyProblem.curvature (p : PyProblem) (x : Vec) : Except EvalErr (List Vec) :=
  match p.hessian with
  | none => .error hessianNotImplemented
  | some h =>
    match h x with
    | none => .error invalidInput
    | some rows =>
      match hessianArray rows with
      | some a => .ok a
      | none => .error invalidInput

/-- `impl Problem for PyProblem`: python/src/lib.rs 570-694; `variable_bounds` panics as in `variableBounds`. -/
def PyProblem.toProb (p : PyProblem) : Except PyErr Prob :=
  match variableBounds p.bounds with
  | .error e => .error e
  | .ok b => .ok ⟨p.cost, p.slope, p.curvature, b, p.constraints⟩

end GS.Py
