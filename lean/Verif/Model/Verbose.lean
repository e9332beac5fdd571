/- What `verbose()` prints about the solution set and the merit threshold: the lines that go with the events of a run.
Numbers and points are the values handed to `println!`, before formatting. -/
import Verif.Lemmas.AllRun

namespace GS
variable {n : Nat}

/-- A printed line: src/oqnlp.rs 1080-1160 (`process_local_solution`), 1746-1756 and 1848-1857 (threshold),
1596-1598 and 1611-1613 (checkpoints). The other lines (stages, time limit, target, `Added local solution`, `x0`)
are in `Model/Transcript.lean`. -/
inductive Line (n : Nat) where
  /-- `Solution with objective _ rejected: out of bounds` -/
  | rejected (objective : F64)
  /-- `New solution added to solution set: objective = _, point = _` -/
  | added (objective : F64) (point : Pt n)
  /-- `New best solution found (replacing solution set): objective = _, point = _` -/
  | best (objective : F64) (point : Pt n)
  /-- `Solution set size: _` -/
  | size (k : Nat)
  /-- `Stage 2, iteration _: Adjusting threshold from _ to _` -/
  | adjusting (iter : Nat) (old new : F64)
  /-- `Checkpoint saved to: _` or `Final checkpoint saved to: _` -/
  | checkpoint (iter : Nat)

/-- Lines of `process_local_solution` for a solution met with the set `set`: src/oqnlp.rs 1080-1085, 1095-1101,
1131-1137, 1153-1159. -/
def processLines (set : Option (List (Sol n))) (s : Sol n) : Verdict → List (Line n)
  | .outOfBounds => [.rejected s.objective]
  | .first => [.added s.objective s.point, .size 1]
  | .newBest => [.best s.objective s.point, .size 1]
  | .added => [.added s.objective s.point, .size (((newSet .added set s).getD []).length)]
  | .dropped | .panic => []

/-- The value printed as new threshold, `threshold + 0.1 * threshold.abs()`: src/oqnlp.rs 1752, 1854. -/
def printedThreshold (t : F64) : F64 := t.add ((F64.lit 1 10).mul t.abs)

/-- Lines that go with an event, given the solution set and the merit threshold before it: src/oqnlp.rs
1080-1160, 1746-1756, 1848-1857, 1596-1598, 1611-1613. -/
def eventLines (set : Option (List (Sol n))) (threshold : F64) : Event n → List (Line n)
  | .processed s v => processLines set s v
  | .relaxed it _ => [.adjusting it threshold (printedThreshold threshold)]
  | .saved it _ => [.checkpoint it]
  | _ => []

/-- The solution set after an event: src/oqnlp.rs 1104-1105, 1118-1119, 1143-1145. -/
def storeStep (set : Option (List (Sol n))) : Event n → Option (List (Sol n))
  | .processed s v => newSet v set s
  | _ => set

/-- Everything printed during a run with the given events that starts with solution set `set` and merit threshold and
pending values `b`: src/oqnlp.rs 678-1031. -/
def printedFrom (set : Option (List (Sol n))) (b : F64 × List F64) : List (Event n) → List (Line n)
  | [] => []
  | e :: tr => eventLines set b.1 e ++ printedFrom (storeStep set e) (bookStep b e) tr

/-- What a run of the optimizer prints: src/oqnlp.rs 678-1031. -/
def printed (set : Option (List (Sol n))) (t0 : F64) (tr : List (Event n)) : List (Line n) :=
  printedFrom set (t0, []) tr

end GS
