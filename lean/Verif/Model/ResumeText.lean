/- What `resume_with_modified_params` and `resume_from_checkpoint_with_params` print. -/
import Verif.Model.Oqnlp

namespace GS
variable {n : Nat}

/-- A line with the numbers in it, before formatting: src/oqnlp.rs 1404-1433, 1498-1505. -/
inductive ResumeMsg where
  /-- "Expanded reference set from {} to {} points": src/oqnlp.rs 1404-1407 -/
  | expanded (old new : Nat)
  /-- "Warning: New population size ({}) is smaller than original ({}). Using original reference set with {} points.",
  on stderr: src/oqnlp.rs 1411-1414 -/
  | warning (new old points : Nat)
  /-- "Keeping original reference set size of {} points despite smaller population_size parameter": src/oqnlp.rs
  1417-1420 -/
  | keeping (points : Nat)
  /-- "Resumed with modified parameters. Iterations changed from {} to {}": src/oqnlp.rs 1430-1433 -/
  | resumed (old new : Nat)
  /-- "Resumed from {} with modified parameters. Iterations changed from {} to {}": src/oqnlp.rs 1499-1504 -/
  | resumedFrom (path : String) (old new : Nat)
deriving DecidableEq, Repr

/-- `if self.verbose { println!(…) }`: src/oqnlp.rs 1403, 1416, 1429, 1498. -/
def ifVerbose (verbose : Bool) (l : List ResumeMsg) : List ResumeMsg := if verbose then l else []

/-- `resume_with_modified_params` with its output: src/oqnlp.rs 1382-1441. -/
def Opt.resumeWithText (env : Env n) (verbose : Bool) (o : Opt n) (loaded : Option (Except CkErr (Ckpt n)))
    (new : Params) : Except Err (Opt n × Bool) × List ResumeMsg :=
  match o.ckpt, loaded with
  | none, _ => (.ok (o, false), [])
  | some _, none => (.ok (o, false), [])
  | some _, some (.error e) => (.error (.checkpoint e), [])
  | some _, some (.ok c) =>
    let oldIterations := c.params.iterations
    let oldSize := c.params.populationSize
    if new.populationSize ≠ oldSize then
      if new.populationSize > oldSize then
        match o.expand env c.referenceSet oldSize new.populationSize with
        | .error e => (.error e, [])
        | .ok ref =>
          (.ok (o.restore { c with referenceSet := ref, params := new }, true),
            ifVerbose verbose [.expanded oldSize new.populationSize] ++
              ifVerbose verbose [.resumed oldIterations new.iterations])
      else
        (.ok (o.restore { c with params := new }, true),
          [.warning new.populationSize oldSize oldSize] ++ ifVerbose verbose [.keeping oldSize] ++
            ifVerbose verbose [.resumed oldIterations new.iterations])
    else
      (.ok (o.restore { c with params := new }, true), ifVerbose verbose [.resumed oldIterations new.iterations])

/-- `resume_from_checkpoint_with_params` with its output: src/oqnlp.rs 1482-1508. -/
def Opt.resumeFromText (verbose : Bool) (o : Opt n) (path : String) (loaded : Except CkErr (Ckpt n)) (new : Params) :
    Except Err (Opt n) × List ResumeMsg :=
  match o.ckpt, loaded with
  | none, _ => (.ok o, [])
  | some _, .error e => (.error (.checkpoint e), [])
  | some _, .ok c =>
    (.ok (o.restore { c with params := new }), ifVerbose verbose [.resumedFrom path c.params.iterations new.iterations])

end GS
