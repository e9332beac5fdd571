/- Statements and chained calls on observers of the Python module: python/src/observers.rs 331-480, python/src/lib.rs
743-746. -/
import Verif.Model.Python

namespace GS.Py

/-- The value of an expression on an observer: the observer or `None`. -/
inductive ObsValue where
  | observer | none
deriving DecidableEq

/-- A method of `None` does not exist. -/
inductive ChainErr where
  | attributeError
deriving DecidableEq

/-- What the methods return: `PyResult<()>`, that is `None`: python/src/observers.rs 331, 349, 364, 378, 392, 419, 429,
438, 448, 476. -/
def PyObsOp.returns : PyObsOp → ObsValue
  | .stage1Tracking => .none
  | .stage2Tracking => .none
  | .timing => .none
  | .mode _ => .none
  | .frequency _ => .none
  | .callback _ => .none
  | .defaultCallback => .none
  | .stage1Callback => .none
  | .stage2Callback => .none
  | .uniqueUpdates => .none

variable {n : Nat}

/-- The value of `o.a().b()…`, and the observer afterwards: python/src/lib.rs 745. -/
def PyObs.chain (o : PyObs n) (v : ObsValue) : List PyObsOp → PyObs n × Except ChainErr ObsValue
  | [] => (o, .ok v)
  | op :: l =>
    match v with
    | .none => (o, .error .attributeError)
    | .observer => PyObs.chain (o.apply op) op.returns l

/-- The statements `o.a()`, `o.b()`, …, one after the other: python/src/observers.rs 416-418, 471-474 (the examples). -/
def PyObs.statements (o : PyObs n) : List PyObsOp → PyObs n × Except ChainErr Unit
  | [] => (o, .ok ())
  | op :: l =>
    match o.chain .observer [op] with
    | (o, .ok _) => PyObs.statements o l
    | (o, .error e) => (o, .error e)

/-- The argument `observer` of `optimize`: `None` is no observer: python/src/lib.rs 776, 790. -/
def PyObs.argument (o : PyObs n) : ObsValue → Option (PyObs n)
  | .observer => some o
  | .none => Option.none

end GS.Py
