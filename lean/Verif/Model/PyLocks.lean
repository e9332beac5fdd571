/- Locks taken by evaluations of Python problems: python/src/lib.rs 26-36, 55-76, 570-586, 588-612, 614-659,
661-694 and python/src/observers.rs (Python callbacks).

Only locking is modelled: a thread is the list of its remaining lock operations.  The interpreter lock is re-entrant
(`Python::attach` on an attached thread does nothing), the two mutexes are not.  While Python code runs the
interpreter may give the interpreter lock to another thread and take it back any number of times. -/

namespace GS.PyLocks

/-- `PYTHON_CALL_MUTEX`, `CONSTRAINT_REGISTRY` and the interpreter lock: python/src/lib.rs 20-40. -/
inductive Lk where
  | call | registry | gil
  deriving DecidableEq, Repr

/-- Lock operations of python/src/lib.rs 44-108, 514-531, 570-694, 785-790, 949-957. -/
inductive Act where
  /-- block until the lock is free, then take it -/
  | acq (l : Lk)
  | rel (l : Lk)
  /-- block until these threads have finished (rayon joins its tasks) -/
  | join (ts : List Nat)
  deriving DecidableEq, Repr

/-- Lock operations of python/src/lib.rs 44-108, 514-531, 570-694, 785-790, 949-957. -/
structure Thread where
  held : List Lk
  prog : List Act
  deriving DecidableEq, Repr

/-- Lock operations of python/src/lib.rs 44-108, 514-531, 570-694, 785-790, 949-957. -/
abbrev State := List Thread

/-- The lock belongs to no thread.  A thread that already holds it is not exempt: `std::sync::Mutex` does
not nest: lock operations of python/src/lib.rs 44-108, 514-531, 570-694, 785-790, 949-957. -/
def free (s : State) (l : Lk) : Bool := s.all fun t => !t.held.contains l

/-- Has thread `j` finished?: lock operations of python/src/lib.rs 44-108, 514-531, 570-694, 785-790,
949-957. -/
def finished (s : State) (j : Nat) : Bool :=
  match s[j]? with
  | none => true
  | some t => t.prog.isEmpty

/-- The next operation of one thread in state `s`, if it is not blocked: lock operations of
python/src/lib.rs 44-108, 514-531, 570-694, 785-790, 949-957. -/
def Thread.step (s : State) (t : Thread) : Option Thread :=
  match t.prog with
  | [] => none
  | .acq l :: p => if free s l then some ⟨l :: t.held, p⟩ else none
  | .rel l :: p => some ⟨t.held.erase l, p⟩
  | .join ts :: p => if ts.all (finished s) then some ⟨t.held, p⟩ else none

/-- Thread `i` makes a step, if it is not blocked: lock operations of python/src/lib.rs 44-108, 514-531,
570-694, 785-790, 949-957. -/
def step (s : State) (i : Nat) : Option State :=
  match s[i]? with
  | none => none
  | some t => (t.step s).map fun t' => s.set i t'

/-- An execution: the threads `sched` make one step each, in this order: lock operations of
python/src/lib.rs 44-108, 514-531, 570-694, 785-790, 949-957. -/
def exec (s : State) : List Nat → Option State
  | [] => some s
  | i :: sched => (step s i).bind fun s' => exec s' sched

/-- Python code during which the interpreter lock is given away `k` times: lock operations of
python/src/lib.rs 44-108, 514-531, 570-694, 785-790, 949-957. -/
def python (k : Nat) : List Act := (List.replicate k [Act.rel .gil, Act.acq .gil]).flatten

/-- What a thread of the bindings does: python/src/lib.rs 44-108, 514-531, 570-694, 785-790, 949-957. -/
inductive Task where
  /-- `PyProblem::objective`: python/src/lib.rs 570-586 -/
  | objective (k : Nat)
  /-- `gradient`, `hessian`, `variable_bounds` and Python callbacks: python/src/lib.rs 588-659 -/
  | other (k : Nat)
  /-- a constraint function: python/src/lib.rs 55-88 -/
  | constraint (k : Nat)
  /-- `PyProblem::constraints`: python/src/lib.rs 661-694 (the registry is released inside `attach`) -/
  | constraints (k : Nat)
  /-- a parallel section: wait for the workers -/
  | parallel (workers : List Nat)
  deriving Repr

/-- python/src/lib.rs 44-108, 514-531, 570-694, 785-790, 949-957. -/
def Task.prog : Task → List Act
  | .objective k => [.acq .call, .acq .gil] ++ python k ++ [.rel .gil, .rel .call]
  | .other k => [.acq .gil] ++ python k ++ [.rel .gil]
  | .constraint k => [.acq .registry, .acq .gil] ++ python k ++ [.rel .gil, .rel .registry]
  | .constraints k => [.acq .registry, .acq .gil] ++ python k ++ [.rel .registry, .rel .gil]
  | .parallel ws => [.join ws]

/-- A thread that performs tasks one after the other, for instance `optimize`: its beginning and its end run with the
interpreter lock, the search itself without (python/src/lib.rs 785-790, 949-957). -/
def thread (tasks : List Task) : Thread := ⟨[], (tasks.map Task.prog).flatten⟩

/-- An objective that calls `optimize` itself: the inner search evaluates the inner objective while the
outer evaluation still holds the call mutex: python/src/lib.rs 570-600, 949-957. -/
def nested (k k' : Nat) : Thread :=
  ⟨[], [.acq .call, .acq .gil] ++ python k ++ [.rel .gil] ++ (Task.objective k').prog ++
    [.acq .gil, .rel .gil, .rel .call]⟩

end GS.PyLocks
