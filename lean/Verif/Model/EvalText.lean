/- The texts of evaluation errors (`Display`, derived with `thiserror`): src/types.rs 521-590. -/
import Verif.Model.Messages

namespace GS

/-- `EvaluationError`: src/types.rs 526-590. In the rest of the model such an error is a code. -/
inductive EvalCause where
  | invalidInput (reason : List Char)
  | divisionByZero
  | negativeSqrt (value : F64)
  | objectiveNotImplemented
  | gradientNotImplemented
  | hessianNotImplemented
  | objectiveFailed (reason : List Char)
  | gradientFailed (reason : List Char)
  | hessianFailed (reason : List Char)
  | constraintNotImplemented
  | invalidConstraintIndex (index maxIndex : Nat)
  | constraintFailed (index : Nat) (reason : List Char)
deriving DecidableEq

/-- `Display` of `EvaluationError`: src/types.rs 530-589. -/
def EvalCause.text (nat : Nat → List Char) (float : F64 → List Char) : EvalCause → List Char
  | .invalidInput r => "Invalid input: ".toList ++ r
  | .divisionByZero => "Division by zero encountered".toList
  | .negativeSqrt v => "Negative square root: attempted sqrt(".toList ++ (float v ++ ")".toList)
  | .objectiveNotImplemented => "Objective function not implemented and needed for local solver".toList
  | .gradientNotImplemented => "Gradient not implemented and needed for local solver".toList
  | .hessianNotImplemented => "Hessian not implemented and needed for local solver".toList
  | .objectiveFailed r => "Objective function evaluation failed: ".toList ++ r
  | .gradientFailed r => "Gradient evaluation failed: ".toList ++ r
  | .hessianFailed r => "Hessian evaluation failed: ".toList ++ r
  | .constraintNotImplemented =>
      "Constraints not implemented and needed for constrained solver (only COBYLA supports constraints)".toList
  | .invalidConstraintIndex i m => "Invalid constraint index ".toList ++ (nat i ++ (", valid range is 0..".toList ++
      nat m))
  | .constraintFailed i r => "Constraint ".toList ++ (nat i ++ (" evaluation failed: ".toList ++ r))

/-- The texts of errors when the codes of evaluation errors stand for `mean`: src/types.rs 521-590. -/
def Words.withCauses (w : Words) (mean : EvalErr → EvalCause) : Words :=
  { w with eval := fun e => (mean e).text w.nat w.float }

/-- The wrapper around a Python function: an exception with text `e` becomes `InvalidInput`, python/src/lib.rs 578-585,
618-625, 640-647. -/
def EvalCause.ofPython (e : List Char) : EvalCause := .invalidInput e

end GS
