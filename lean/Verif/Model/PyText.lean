/- `str` and `repr` of the results and observers of the Python module: python/src/lib.rs 241-247, 339-366 and
python/src/observers.rs 546-578. -/
import Verif.Model.Python

namespace GS.Py

/-- Formatting by the standard library: the format arguments of python/src/lib.rs 241-247, 339-366. -/
structure Words where
  /-- `{}` of `usize` -/
  nat : Nat → List Char
  /-- `{}` of `f64` -/
  disp : F64 → List Char
  /-- `{:?}` of `f64` -/
  dbg : F64 → List Char
  /-- `{:.8e}` of `f64` -/
  sci8 : F64 → List Char

/-- End of `{:?}` of a vector after its first element: python/src/lib.rs 242, 246, 340, 359 (standard library). -/
def vecTail (w : Words) : List F64 → List Char
  | [] => [']']
  | x :: l => ',' :: ' ' :: (w.dbg x ++ vecTail w l)

/-- `{:?}` of a vector: python/src/lib.rs 242, 246, 340, 359 (standard library). -/
def vec (w : Words) : List F64 → List Char
  | [] => ['[', ']']
  | x :: l => '[' :: (w.dbg x ++ vecTail w l)

/-- `PyLocalSolution.__repr__`: python/src/lib.rs 241-243. -/
def PySol.repr (w : Words) (s : PySol) : List Char :=
  "PyLocalSolution(point=".toList ++ (vec w s.point ++ (", objective=".toList ++ (w.disp s.objective ++ [')'])))

/-- `PyLocalSolution.__str__`: python/src/lib.rs 245-247. -/
def PySol.str (w : Words) (s : PySol) : List Char :=
  "Solution(x=".toList ++ (vec w s.point ++ (", fun=".toList ++ (w.disp s.objective ++ [')'])))

/-- `{:?}` of a `PyLocalSolution`: python/src/lib.rs 185, 340 (derived). -/
def PySol.debug (w : Words) (s : PySol) : List Char :=
  "PyLocalSolution { point: ".toList ++ (vec w s.point ++ (", objective: ".toList ++ (w.dbg s.objective ++ [' ', '}'])))

/-- End of `{:?}` of a vector of solutions: python/src/lib.rs 340 (standard library). -/
def solsTail (w : Words) : List PySol → List Char
  | [] => [']']
  | s :: l => ',' :: ' ' :: (s.debug w ++ solsTail w l)

/-- `{:?}` of a vector of solutions: python/src/lib.rs 340 (standard library). -/
def sols (w : Words) : List PySol → List Char
  | [] => ['[', ']']
  | s :: l => '[' :: (s.debug w ++ solsTail w l)

/-- `PySolutionSet.__repr__`: python/src/lib.rs 339-341. -/
def setRepr (w : Words) (l : List PySol) : List Char := "PySolutionSet(solutions=".toList ++ (sols w l ++ [')'])

/-- The rule below the title and below the header: python/src/lib.rs 345, 353. -/
def rule : List Char := "━━━━━━━━━━━━━━━━━━━━━━━━━━━━━━━━━━━━".toList

/-- The separator between two solutions: python/src/lib.rs 361-363. -/
def thinRule : List Char := "――――――――――――――――――――――――――――――――――――".toList

/-- One solution: python/src/lib.rs 355-363. -/
def solLines (w : Words) (total i : Nat) (s : PySol) : List (List Char) :=
  ["Solution #".toList ++ w.nat (i + 1), "  Objective: ".toList ++ w.sci8 s.objective,
    "  Parameters: ".toList ++ vec w s.point] ++ (if i < total - 1 then [thinRule] else [])

/-- `PySolutionSet.__str__` as lines: python/src/lib.rs 343-366. -/
def setStr (w : Words) (l : List PySol) : List (List Char) :=
  ["Solution Set".toList, rule, "Total solutions: ".toList ++ w.nat l.length] ++
    (if l.isEmpty then []
      else match best l with
        | some b => ["Best objective value: ".toList ++ w.sci8 b.objective]
        | none => []) ++
    [rule] ++ (l.mapIdx fun i s => solLines w l.length i s).flatten

/-- A part of `PyObserver.__str__` with its numbers, before formatting: python/src/observers.rs 549-575. -/
inductive ObsPart where
  /-- "Stage 1 Tracking: {}" -/
  | tracking1 (b : Bool)
  /-- "Stage 2 Tracking: {}" -/
  | tracking2 (b : Bool)
  /-- "Timing Enabled: {}" -/
  | timing (b : Bool)
  /-- "Stage 1 State:" and its five lines -/
  | stage1 (refSetSize : Nat) (best : F64) (substage : Substage) (evals trials : Nat)
  /-- "Stage 2 State:" and its eight lines -/
  | stage2 (iteration : Nat) (best : F64) (size : Nat) (threshold : F64) (calls improved evals unchanged : Nat)
deriving DecidableEq

/-- `PyObserver.__str__`: python/src/observers.rs 546-578. -/
def PyObs.str {n : Nat} (o : PyObs n) : List ObsPart :=
  [.tracking1 o.inner.should1, .tracking2 o.inner.should2, .timing o.inner.trackTiming] ++
    (match o.inner.getStage1 with
      | some s => [.stage1 s.refSetSize s.bestObjective s.substage s.functionEvaluations s.trialPoints]
      | none => []) ++
    (match o.inner.getStage2 with
      | some s => [.stage2 s.iteration s.bestObjective s.solutionSetSize s.threshold s.localCalls s.improvedCalls
          s.functionEvaluations s.unchangedCycles]
      | none => [])

end GS.Py
