/- Solution set: src/types.rs 286-310 and the set update of src/oqnlp.rs 1058-1179. -/
import Verif.Model.Runtime

namespace GS
variable {n : Nat}

/-- `SolutionSet::best_solution`: src/types.rs 302-304 (`min_by` keeps the first minimum). -/
def bestSolution (set : List (Sol n)) : Option (Sol n) := reduceSeq (minOp Sol.objective) set

/-- `is_within_bounds`: src/oqnlp.rs 1058-1071. -/
def withinBounds (p : Problem n) (x : Pt n) : Bool :=
  (List.finRange n).all fun i => !(F64.lt (x i) (p.lower i) || F64.gt (x i) (p.upper i))

/-- `tol` of `process_local_solution`: src/oqnlp.rs 1116. -/
def tolerance (absTol relTol a b : F64) : F64 := absTol.max (relTol.mul (a.abs.max b.abs))

/-- `is_duplicate_in_set`: src/oqnlp.rs 1171-1179. -/
def isDuplicate (distanceFactor : F64) (s : Sol n) (set : List (Sol n)) : Bool :=
  set.any fun t => F64.lt (dist2 s.point t.point) (distanceFactor.mul distanceFactor)

/-- What `process_local_solution` does with a local solution: src/oqnlp.rs 1074-1168. -/
inductive Verdict where
  | outOfBounds | first | newBest | added | dropped | panic
deriving DecidableEq, Repr

/-- Settings read by `process_local_solution`: src/oqnlp.rs 1074-1180. -/
structure SetCfg (n : Nat) where
  problem : Problem n
  exclude : Bool
  absTol : F64
  relTol : F64
  distanceFactor : F64

/-- The branch taken by `process_local_solution`: src/oqnlp.rs 1078-1164. -/
def classify (c : SetCfg n) (set : Option (List (Sol n))) (s : Sol n) : Verdict :=
  if c.exclude && !(withinBounds c.problem s.point) then .outOfBounds
  else
    match set with
    | none => .first
    | some [] => .panic
    | some (hd :: tl) =>
      let tol := tolerance c.absTol c.relTol s.objective hd.objective
      if F64.lt s.objective (hd.objective.sub tol) then .newBest
      else if F64.le (s.objective.sub hd.objective).abs tol
          && !(isDuplicate c.distanceFactor s (hd :: tl)) then .added
      else .dropped

/-- New contents of `solution_set`: src/oqnlp.rs 1103-1104, 1120-1121, 1142-1144. -/
def newSet (v : Verdict) (set : Option (List (Sol n))) (s : Sol n) : Option (List (Sol n)) :=
  match v with
  | .first | .newBest => some [s]
  | .added => some (set.getD [] ++ [s])
  | .outOfBounds | .dropped | .panic => set

/-- Return value of `process_local_solution`: src/oqnlp.rs 1088, 1108, 1139, 1161, 1163. -/
def Verdict.returned : Verdict → Bool
  | .first | .added => true
  | _ => false

/-- Does the branch set the merit threshold to the new objective?  src/oqnlp.rs 1105, 1122. -/
def Verdict.setsThreshold : Verdict → Bool
  | .first | .newBest => true
  | _ => false

/-- Does the branch report the point to the stage-2 observer?  src/oqnlp.rs 1125-1129, 1147-1151. -/
def Verdict.reports : Verdict → Bool
  | .newBest | .added => true
  | _ => false

end GS
