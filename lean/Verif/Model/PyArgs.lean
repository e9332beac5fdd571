/- The arguments of `optimize` of the Python module: python/src/lib.rs 771-798. -/
import Verif.Model.Python

namespace GS.Py
variable {n : Nat}

/-- A Python value passed for an optional argument of `optimize`. -/
inductive PyVal (n : Nat) where
  | none
  | observer (o : PyObs n)
  | str (s : List Char)
  | config (c : PyObj)
  | int (i : Int)
  | float (x : F64)
  | bool (b : Bool)
  | rows (r : List (List F64))

/-- The optional arguments in the order of the signature: python/src/lib.rs 776-785. -/
def argNames : List String :=
  ["observer", "local_solver", "local_solver_config", "seed", "target_objective", "max_time", "verbose",
    "exclude_out_of_bounds", "parallel", "with_points"]

/-- The optional arguments of a call, by position and by name: python/src/lib.rs 773-786. -/
structure OptCall (n : Nat) where
  positional : List (PyVal n)
  named : List (String × PyVal n)

/-- The value of an argument, `None` if it is not given: python/src/lib.rs 776-785. -/
def OptCall.value (c : OptCall n) (i : Nat) (name : String) : PyVal n :=
  match c.positional[i]? with
  | some v => v
  | Option.none =>
    match c.named.find? fun p => p.1 == name with
    | some p => p.2
    | Option.none => .none

/-- `Option<&PyObserver>`: python/src/lib.rs 790. -/
def PyVal.toObserver : PyVal n → Except PyErr (Option (PyObs n))
  | .none => .ok Option.none
  | .observer o => .ok (some o)
  | _ => .error .typeError

/-- `Option<&str>`: python/src/lib.rs 791. -/
def PyVal.toStr : PyVal n → Except PyErr (Option (List Char))
  | .none => .ok Option.none
  | .str s => .ok (some s)
  | _ => .error .typeError

/-- `Option<Py<PyAny>>`, any object: python/src/lib.rs 792. -/
def PyVal.toConfig : PyVal n → Except PyErr (Option PyObj)
  | .none => .ok Option.none
  | .config c => .ok (some c)
  | _ => .ok (some .other)

/-- `Option<u64>`: python/src/lib.rs 793. `bool` is a subclass of `int`. -/
def PyVal.toSeed : PyVal n → Except PyErr (Option Nat)
  | .none => .ok Option.none
  | .int i => if 0 ≤ i ∧ i < 2 ^ 64 then .ok (some i.toNat) else .error .overflowError
  | .bool b => .ok (some b.toNat)
  | _ => .error .typeError

/-- `Option<f64>`: python/src/lib.rs 794-795. `ofInt` is the conversion of `int` by Python, which may overflow. -/
def PyVal.toFloat (ofInt : Int → Except PyErr F64) : PyVal n → Except PyErr (Option F64)
  | .none => .ok Option.none
  | .float x => .ok (some x)
  | .int i => (ofInt i).map some
  | .bool b => (ofInt b.toNat).map some
  | _ => .error .typeError

/-- `Option<bool>`: python/src/lib.rs 796-798. -/
def PyVal.toBool : PyVal n → Except PyErr (Option Bool)
  | .none => .ok Option.none
  | .bool b => .ok (some b)
  | _ => .error .typeError

/-- `Option<Vec<Vec<f64>>>`: python/src/lib.rs 799. -/
def PyVal.toRows : PyVal n → Except PyErr (Option (List (List F64)))
  | .none => .ok Option.none
  | .rows r => .ok (some r)
  | _ => .error .typeError

/-- The arguments bound by pyo3; too many, unknown or repeated ones are a `TypeError`: python/src/lib.rs 773-799. -/
def OptCall.bind (ofInt : Int → Except PyErr F64) (p : Problem n) (ps : PyParams) (c : OptCall n) :
    Except PyErr (Args n) :=
  if c.positional.length ≤ argNames.length ∧ (∀ q ∈ c.named, q.1 ∈ argNames.drop c.positional.length) ∧
      (c.named.map Prod.fst).Nodup then do
    let observer ← (c.value 0 "observer").toObserver
    let localSolver ← (c.value 1 "local_solver").toStr
    let config ← (c.value 2 "local_solver_config").toConfig
    let seed ← (c.value 3 "seed").toSeed
    let target ← (c.value 4 "target_objective").toFloat ofInt
    let maxTime ← (c.value 5 "max_time").toFloat ofInt
    let verbose ← (c.value 6 "verbose").toBool
    let exclude ← (c.value 7 "exclude_out_of_bounds").toBool
    let parallel ← (c.value 8 "parallel").toBool
    let points ← (c.value 9 "with_points").toRows
    .ok ⟨p, ps, observer, localSolver, config, seed, target, maxTime, verbose, exclude, parallel, points⟩
  else .error .typeError

end GS.Py
