/- The objects of a Python program that works with results: python/src/lib.rs 181-390. -/
import Verif.Model.Python

namespace GS.Py
open GS

/-- The solution sets, solutions and lists of floats a program has, each by its number. pyo3 keeps the Rust value
inside the Python object, so the objects of the program are the values here: python/src/lib.rs 197-213, 276-283. -/
structure Heap where
  sets : List (List PySol)
  objects : List PySol
  lists : List (List F64)

/-- What a program can do with results: python/src/lib.rs 181-390. -/
inductive HeapOp where
  /-- `sets[k][i]`: python/src/lib.rs 322-328 -/
  | item (k : Nat) (i : Int)
  /-- `sets[k].best_solution()`: python/src/lib.rs 311-313 -/
  | best (k : Nat)
  /-- `sets[k].solutions`, `list(sets[k])`: python/src/lib.rs 277-282, 333-336, 380-388 -/
  | solutions (k : Nat)
  /-- `PyLocalSolution(point, objective)`: python/src/lib.rs 214-217 -/
  | make (point : List F64) (objective : F64)
  /-- `objects[o].point = v`: python/src/lib.rs 198-203 -/
  | setPoint (o : Nat) (v : List F64)
  /-- `objects[o].objective = v`: python/src/lib.rs 204-209 -/
  | setObjective (o : Nat) (v : F64)
  /-- `objects[o].point` and `objects[o].x()`: python/src/lib.rs 198-203, 237-239 -/
  | point (o : Nat)
  /-- `lists[j][i] = v` -/
  | editList (j i : Nat) (v : F64)
  /-- `PySolutionSet([objects[o] for o in os])`: python/src/lib.rs 287-290 -/
  | collect (os : List Nat)

/-- `fun()`: python/src/lib.rs 226-228. -/
def PySol.fun' (s : PySol) : F64 := s.objective

/-- `x()`: python/src/lib.rs 237-239. -/
def PySol.x (s : PySol) : List F64 := s.point

/-- One statement; one that raises (no such index, object or best solution) changes nothing. Solutions leave sets, and
points leave solutions, by `clone`: python/src/lib.rs 197-390. -/
def Heap.step (h : Heap) : HeapOp → Heap
  | .item k i =>
    match h.sets[k]? with
    | none => h
    | some s =>
      match getItem s i with
      | .ok x => { h with objects := h.objects ++ [x] }
      | .error _ => h
  | .best k =>
    match (h.sets[k]?).bind Py.best with
    | none => h
    | some x => { h with objects := h.objects ++ [x] }
  | .solutions k =>
    match h.sets[k]? with
    | none => h
    | some s => { h with objects := h.objects ++ s }
  | .make p v => { h with objects := h.objects ++ [⟨p, v⟩] }
  | .setPoint o v => { h with objects := h.objects.modify o fun s => { s with point := v } }
  | .setObjective o v => { h with objects := h.objects.modify o fun s => { s with objective := v } }
  | .point o =>
    match h.objects[o]? with
    | none => h
    | some s => { h with lists := h.lists ++ [s.x] }
  | .editList j i v => { h with lists := h.lists.modify j fun l => l.set i v }
  | .collect os =>
    match os.mapM fun o => h.objects[o]? with
    | none => h
    | some s => { h with sets := h.sets ++ [s] }

/-- A program: python/src/lib.rs 181-390. -/
def Heap.exec (h : Heap) (ops : List HeapOp) : Heap := ops.foldl Heap.step h

end GS.Py
