/- The constraint registry of the Python bindings: python/src/lib.rs 20-108 and 529-531, 661-694.

The state is the process-wide registry (a mutex-protected map from problem numbers to lists of Python
functions), its poison flag, the counter of problem numbers and the thread-local current problem number. -/
import Verif.Model.Types

namespace GS.PyReg

/-- A Python constraint function: `none` when the call raises or does not return a float:
python/src/lib.rs 20-60. -/
abbrev PyFn := List F64 → Option F64

/-- What matters of a `PyProblem`: its number and its `constraints` attribute as a list of functions (a list, a
tuple or a single function; python/src/lib.rs 669-680). -/
structure Prob where
  id : Nat
  constraints : Option (List PyFn)

/-- python/src/lib.rs 20-60. -/
structure State where
  /-- `CONSTRAINT_REGISTRY` -/
  registry : Nat → Option (List PyFn)
  /-- has a thread panicked while holding the registry lock? -/
  poisoned : Bool
  /-- `CURRENT_PROBLEM_ID` of every thread -/
  current : Nat → Nat
  /-- `PROBLEM_ID_COUNTER` -/
  counter : Nat

/-- State of a fresh process: python/src/lib.rs 22-31. -/
def State.init : State := ⟨fun _ => none, false, fun _ => 0, 0⟩

/-- `PyProblem.__new__`: python/src/lib.rs 514-530, 42-44. -/
def newProblem (s : State) (cs : Option (List PyFn)) : State × Prob :=
  ({ s with counter := s.counter + 1 }, ⟨s.counter, cs⟩)

/-- `MAX_CONSTRAINTS`: python/src/lib.rs 79. -/
def maxConstraints : Nat := 1000

/-- `PyProblem::constraints` called on thread `t`: python/src/lib.rs 661-694, 91-108.  The result is the list of
indices of the generated functions `constraint_fn_0`, `constraint_fn_1`, …; `none` is a panic. -/
def constraints (s : State) (t : Nat) (p : Prob) : State × Option (List Nat) :=
  match p.constraints with
  | none => (s, some [])
  | some cs =>
    if s.poisoned then (s, none)
    else
      let s' := { s with
        registry := fun i => if i = p.id then some cs else s.registry i
        current := fun u => if u = t then p.id else s.current u }
      if cs.length > maxConstraints then (s', none) else (s', some (List.range cs.length))

/-- All values, or `none` if some call fails: python/src/lib.rs 62-71. -/
def values : List PyFn → List F64 → Option (List F64)
  | [], _ => some []
  | f :: fs, x =>
    match f x, values fs x with
    | some v, some vs => some (v :: vs)
    | _, _ => none

/-- `constraint_fn_N` called on thread `t`: python/src/lib.rs 55-88.  `none` is a panic; it happens with the
registry locked and therefore poisons it. -/
def eval (s : State) (t : Nat) (i : Nat) (x : List F64) : State × Option F64 :=
  if s.poisoned then (s, none)
  else
    match s.registry (s.current t) with
    | none => (s, some F64.zero)
    | some cs =>
      match values cs x with
      | none => ({ s with poisoned := true }, none)
      | some vs => (s, some ((vs[i]?).getD F64.zero))

/-- One step of the process: some thread does one of these: python/src/lib.rs 44-108, 523-560, 660-694. -/
inductive Op where
  | new (cs : Option (List PyFn))
  | constraints (t : Nat) (p : Prob)
  | eval (t : Nat) (i : Nat) (x : List F64)

/-- python/src/lib.rs 44-108, 523-560, 660-694. -/
def step (s : State) : Op → State
  | .new cs => (newProblem s cs).1
  | .constraints t p => (constraints s t p).1
  | .eval t i x => (eval s t i x).1

/-- Any interleaving of steps of all threads: python/src/lib.rs 44-108, 523-560, 660-694. -/
def steps (s : State) (ops : List Op) : State := ops.foldl step s

end GS.PyReg
