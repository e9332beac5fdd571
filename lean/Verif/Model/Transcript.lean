/- Everything `verbose()` prints during `run`, in order: the machine of `Model/Oqnlp.lean` with its output. Numbers and
points are the values handed to `println!`, before formatting. Every definition in `VAct` follows the one of
the same name in `Act` and adds the `println!` calls at the places they have in the source. -/
import Verif.Model.Verbose
import Verif.Lemmas.Built

namespace GS
variable {n : Nat}

/-- A message of `run`: src/oqnlp.rs 705-707, 717-719, 788-793, 812-817, 862-864, 966-968, 1006-1011, 1550-1555,
1724-1730, 1734-1739 (and their copies at 1946-1952, 1973-1979, 2045-2051, 2054-2060). -/
inductive VLine (n : Nat) where
  /-- `Resumed from checkpoint at iteration _ with _ solutions` -/
  | resumed (iter sols : Nat)
  /-- `Resuming from checkpoint at iteration _` -/
  | resuming (iter : Nat)
  /-- `Starting Stage 1` -/
  | stage1
  /-- `Stage 1: Local solution found with objective = _` -/
  | local1 (objective : F64)
  /-- `Stage 1: Target objective _ reached. Stopping optimization.` -/
  | target1 (target : F64)
  /-- `Starting Stage 2` -/
  | stage2
  /-- `Timeout reached after _ seconds` -/
  | timeout (limit : F64)
  /-- `Stage 2: Target objective _ reached. Stopping optimization.` -/
  | targetBatch (target : F64)
  /-- `Stage 2, iteration _: Target objective _ reached. Stopping optimization.` -/
  | targetIter (iter : Nat) (target : F64)
  /-- `Stage 2, iteration _: Added local solution found with objective = _`, followed by `x0 = _` -/
  | addedLocal (iter : Nat) (objective : F64) (x0 : Pt n)
  /-- Lines about the solution set, the merit threshold and checkpoints -/
  | base (l : Line n)

/-- The run state and the output so far: src/oqnlp.rs 678-1031. -/
abbrev Talk (n : Nat) := M n × List (VLine n)

/-- A piece of `run` with its output: src/oqnlp.rs 678-1031. -/
abbrev VAct (n : Nat) := Talk n → Talk n × Out

/-- The value printed as target, `self.target_objective.unwrap()`; the lines are printed only when there is a target:
src/oqnlp.rs 815, 1009, 1738, 1977, 2058. -/
def Opt.targetShown (o : Opt n) : F64 := o.target.getD F64.zero

namespace VAct

/-- A piece of code that prints nothing: control flow of src/oqnlp.rs 678-1031. -/
def quiet (a : Act n) : VAct n := fun t => (((a t.1).1, t.2), (a t.1).2)

/-- `println!`: e.g. src/oqnlp.rs 706. -/
def say (l : List (VLine n)) : VAct n := fun t => ((t.1, t.2 ++ l), .cont)

/-- Sequencing: control flow of src/oqnlp.rs 678-1031. -/
def seq (a b : VAct n) : VAct n := fun t => if (a t).2 = .cont then b (a t).1 else a t

@[inherit_doc] infixr:60 " ;;; " => VAct.seq

/-- Run a list of pieces one after another: the loops of src/oqnlp.rs 1640, 1830, 1926, 1990. -/
def all : List (VAct n) → VAct n
  | [] => quiet Act.skip
  | a :: l => a ;;; all l

/-- `process_local_solution`: src/oqnlp.rs 1074-1165. -/
def process (s : Sol n) (k : Verdict → VAct n) : VAct n := fun t =>
  let r := t.1.opt.process s
  let t' : Talk n := ({ t.1 with opt := r.1, trace := t.1.trace ++ [.processed s r.2] },
    t.2 ++ (processLines t.1.opt.solset s r.2).map .base)
  if r.2 = .panic then (t', .fail .panic) else k r.2 t'

/-- `if self.verbose && added`: src/oqnlp.rs 1724-1730, 1946-1952, 2045-2051. -/
def tell (iter : Nat) (s : Sol n) (v : Verdict) : VAct n :=
  say (if v.returned then [.addedLocal iter s.objective s.point] else [])

/-- Early return when the target is reached: src/oqnlp.rs 1732-1742, 1972-1981, 2053-2062. -/
def stopIfTarget (iter : Nat) : VAct n := fun t =>
  if t.1.opt.targetReached then ((t.1, t.2 ++ [.targetIter iter t.1.opt.targetShown]), .stop) else (t, .cont)

/-- A point rejected by the filters: src/oqnlp.rs 1744-1758, 1847-1859. -/
def reject (iter : Nat) : VAct n := fun t =>
  if t.1.opt.params.waitCycle ≤ t.1.uc + 1 then
    (((Act.reject iter t.1).1, t.2 ++
      [.base (.adjusting iter t.1.opt.merit.threshold (printedThreshold t.1.opt.merit.threshold))]), .cont)
  else quiet (Act.reject iter) t

/-- Write a checkpoint: src/oqnlp.rs 1593-1598, 1608-1613. -/
def writeCkpt (env : Env n) : VAct n := fun t =>
  match env.io t.1.saves with
  | some _ => quiet (Act.writeCkpt env) t
  | none => (quiet (Act.writeCkpt env) ;;; say [.base (.checkpoint t.1.opt.curIter)]) t

/-- `maybe_save_checkpoint`: src/oqnlp.rs 1590-1602. -/
def save (env : Env n) : VAct n := fun t =>
  match t.1.opt.ckpt with
  | none => (t, .cont)
  | some cfg =>
    if cfg.saveFrequency = 0 then (t, .fail .panic)
    else if t.1.opt.curIter % cfg.saveFrequency = 0 then writeCkpt env t
    else (t, .cont)

/-- `maybe_save_final_checkpoint`: src/oqnlp.rs 1606-1616. -/
def saveFinal (env : Env n) : VAct n := fun t =>
  match t.1.opt.ckpt with
  | none => (t, .cont)
  | some _ => writeCkpt env t

/-- Run a local search and continue with its result: src/oqnlp.rs 1692-1704, 1997-2009. -/
def search (env : Env n) (ty : SolverType) (cfg : SolverConfig) (iter : Option Nat) (p : Pt n)
    (k : Sol n → Nat → VAct n) : VAct n := fun t =>
  match env.solve ty cfg p with
  | .error e =>
    (({ t.1 with trace := t.1.trace ++ [.search iter p (.error e)] }, t.2), .fail (.localSolver e))
  | .ok (s, evals) =>
    k s (if t.1.opt.tracks2 then evals else 0)
      ({ t.1 with trace := t.1.trace ++ [.search iter p (.ok s)] }, t.2)

/-- Obtain the merit value and continue: src/oqnlp.rs 1668-1688. -/
def getMerit (objs : Option (List F64)) (iter : Nat) (p : Pt n) (k : F64 → VAct n) : VAct n := fun t =>
  let m1 := if objs.isNone then { t.1 with trace := t.1.trace ++ [.evaluate iter p] } else t.1
  match Act.meritValue t.1.opt objs iter p with
  | .error e => ((m1, t.2), .fail e)
  | .ok v => (quiet (if objs.isNone then Act.obsEvals 1 else Act.skip) ;;; k v) (m1, t.2)

/-- Accepted point in sequential stage 2: src/oqnlp.rs 1691-1742. -/
def localSeq (env : Env n) (iter : Nat) (p : Pt n) (obj : F64) : VAct n := fun t =>
  (quiet (Act.setThreshold obj) ;;; search env t.1.opt.lsType t.1.opt.lsConfig (some iter) p fun s evals =>
    process s fun v => quiet (Act.obsLocal v.returned evals) ;;; tell iter s v ;;; stopIfTarget iter) t

/-- One iteration of `process_batch_sequential`: src/oqnlp.rs 1637-1771. -/
def stepSeq (env : Env n) (resumed : Bool) (startIter : Nat) (objs : Option (List F64))
    (it : Nat × Pt n) : VAct n :=
  if resumed && it.1 < startIter then quiet Act.skip
  else
    quiet (Act.beginIter env it.1) ;;; quiet (Act.obsIter it.1) ;;; getMerit objs it.1 it.2 fun v => fun t =>
      (quiet (Act.log (.examine it.1 it.2 v (t.1.opt.shouldStart it.2 v))) ;;;
       (if t.1.opt.shouldStart it.2 v then localSeq env it.1 it.2 v else reject it.1) ;;;
       quiet (Act.callback env it.1) ;;; save env) t

/-- `process_batch_sequential`: src/oqnlp.rs 1629-1773. -/
def batchSeq (env : Env n) (resumed : Bool) (startIter : Nat) (objs : Option (List F64))
    (items : List (Nat × Pt n)) : VAct n :=
  all (items.map (stepSeq env resumed startIter objs))

/-- Rejected point in parallel stage 2: src/oqnlp.rs 1839-1881. -/
def quickPar (env : Env n) (iter : Nat) : VAct n :=
  quiet (Act.beginIter env iter) ;;; reject iter ;;; quiet (Act.obsIter iter) ;;; quiet (Act.callback env iter) ;;;
    save env

/-- Processing of one local result in parallel stage 2: src/oqnlp.rs 1919-1985. -/
def resultPar (env : Env n) (iter : Nat) (obj : F64) (s : Sol n) (evals : Nat) : VAct n :=
  quiet (Act.beginIter env iter) ;;; quiet (Act.setThreshold obj) ;;; process s fun v =>
    quiet (Act.obsLocal v.returned evals) ;;; tell iter s v ;;; quiet (Act.obsIter iter) ;;;
      quiet (Act.callback env iter) ;;; stopIfTarget iter ;;; save env

/-- Single local candidate of a parallel batch: src/oqnlp.rs 1988-2066. Here the message about an added solution comes
after the callback. -/
def singlePar (env : Env n) (iter : Nat) (p : Pt n) (obj : F64) : VAct n := fun t =>
  (quiet (Act.beginIter env iter) ;;; quiet (Act.setThreshold obj) ;;;
    search env t.1.opt.lsType t.1.opt.lsConfig (some iter) p fun s evals =>
      process s fun v =>
        quiet (Act.obsLocal v.returned evals) ;;; quiet (Act.obsIter iter) ;;; quiet (Act.invoke env (16 + iter)) ;;;
          tell iter s v ;;; stopIfTarget iter ;;; save env) t

/-- Two or more local candidates: src/oqnlp.rs 1886-1985. -/
def groupPar (env : Env n) (first : Nat) (cands : List (Nat × Pt n × F64)) : VAct n := fun t =>
  match Act.parCollect (Act.solveTask env t.1.opt) cands (env.solveOrder first) with
  | .error e => (({ t.1 with trace := t.1.trace ++ cands.map (Act.solveEvent env t.1.opt) }, t.2), .fail e)
  | .ok rs => all (rs.map fun r => resultPar env r.1 r.2.1 r.2.2.1 r.2.2.2)
      ({ t.1 with trace := t.1.trace ++ cands.map (Act.solveEvent env t.1.opt) }, t.2)

/-- The local candidates of a parallel batch: src/oqnlp.rs 1884-2067. -/
def localsPar (env : Env n) (first : Nat) (cands : List (Nat × Pt n × F64)) : VAct n := fun t =>
  if 2 ≤ cands.length && t.1.opt.par then groupPar env first cands t
  else all (cands.map fun c => singlePar env c.1 c.2.1 c.2.2) t

/-- The part of `process_batch_parallel` after the evaluation: src/oqnlp.rs 1820-2111. -/
def afterEval (env : Env n) (objs : Option (List F64)) (first : Nat)
    (vals : List (Nat × Pt n × F64)) : VAct n := fun t =>
  (quiet (if objs.isNone then Act.obsEvals vals.length else Act.skip) ;;;
    all ((vals.filter fun c => !Act.passes t.1.opt c).map fun c => quickPar env c.1) ;;;
    localsPar env first (vals.filter (Act.passes t.1.opt)))
    ({ t.1 with trace := t.1.trace ++ vals.map fun c => Event.examine c.1 c.2.1 c.2.2 (Act.passes t.1.opt c) }, t.2)

/-- `process_batch_parallel` on the items left after filtering: src/oqnlp.rs 1792-2112. -/
def batchParItems (env : Env n) (objs : Option (List F64)) : List (Nat × Pt n) → VAct n
  | [] => quiet Act.skip
  | it0 :: its => fun t =>
    match Act.parCollect (Act.evalTask t.1.opt objs) (it0 :: its) (env.evalOrder it0.1) with
    | .error e => ((Act.logEvals objs (it0 :: its) t.1, t.2), .fail e)
    | .ok vals => afterEval env objs it0.1 vals (Act.logEvals objs (it0 :: its) t.1, t.2)

/-- `process_batch_parallel`: src/oqnlp.rs 1777-2112. -/
def batchPar (env : Env n) (resumed : Bool) (startIter : Nat) (objs : Option (List F64))
    (batch : List (Nat × Pt n)) : VAct n :=
  batchParItems env objs
    (if resumed then batch.filter (fun it => startIter ≤ it.1) else batch)

/-- Choice of the batch function: src/oqnlp.rs 975-991. -/
def procBatch (env : Env n) (resumed : Bool) (startIter : Nat) (objs : Option (List F64))
    (eff : Nat) (batch : List (Nat × Pt n)) : VAct n :=
  if 1 < eff then batchPar env resumed startIter objs batch
  else batchSeq env resumed startIter objs batch

/-- The value printed as time limit, `max_secs` of `if let Some(max_secs) = self.max_time`: src/oqnlp.rs 964-968. -/
def limitShown (o : Opt n) : F64 := o.maxTime.getD F64.zero

/-- Stage-2 loop over the batches: src/oqnlp.rs 962-1014; `k` counts timeout checks. -/
def loop (env : Env n) (resumed : Bool) (startIter : Nat) (objs : Option (List F64)) (eff : Nat) :
    Nat → List (List (Nat × Pt n)) → VAct n
  | _, [] => quiet Act.skip
  | k, batch :: rest => fun t =>
    if Act.timedOut env t.1.opt k then ((t.1, t.2 ++ [.timeout (limitShown t.1.opt)]), .cont)
    else
      match procBatch env resumed startIter objs eff batch t with
      | (t', .fail e) => (t', .fail e)
      | (t', _) =>
        if t'.1.opt.targetReached then ((t'.1, t'.2 ++ [.targetBatch t'.1.opt.targetShown]), .cont)
        else loop env resumed startIter objs eff (k + 1) rest t'

/-- Main part of stage 2 on the (shuffled) points `ref`: src/oqnlp.rs 936-1027. -/
def stage2Main (env : Env n) (resumed : Bool) (startIter : Nat) (ref : List (Pt n))
    (objs : Option (List F64)) : VAct n := fun t =>
  if t.1.opt.effBatch env.threads startIter = 0 then (t, .fail .panic)
  else
    (loop env resumed startIter objs (t.1.opt.effBatch env.threads startIter) 0
        (chunks (t.1.opt.effBatch env.threads startIter)
          (Act.items t.1.opt.params.iterations startIter ref)) ;;;
      quiet (Act.obsEnd2 env) ;;; saveFinal env) t

/-- Stage 2: src/oqnlp.rs 862-1027. -/
def stage2 (env : Env n) (resumed : Bool) (ref : List (Pt n)) (objs : Option (List F64)) : VAct n :=
  say [.stage2] ;;; quiet (Act.obsStart2 env) ;;; fun t =>
    if resumed then stage2Main env true t.1.opt.curIter ref objs t
    else
      match Opt.shuffleSeed env t.1.opt.params.seed t.1.opt.curIter with
      | none => (t, .fail .panic)
      | some sd => (quiet (Act.setSeed sd) ;;; stage2Main env false 0 (env.rt.shuffle sd ref) objs) t

/-- First local search and the end of stage 1: src/oqnlp.rs 778-859. -/
def stage1Local (env : Env n) (p : Pt n) (ref : List (Pt n)) : VAct n := fun t =>
  match env.solve t.1.opt.lsType t.1.opt.lsConfig p with
  | .error e =>
    (({ t.1 with trace := t.1.trace ++ [.search none p (.error e)] }, t.2), .fail (.localSolver e))
  | .ok (s, evals) =>
    (quiet (Act.setThreshold s.objective) ;;; say [.local1 s.objective] ;;;
      quiet (Act.obsLocal1 env s (if t.1.opt.tracks1 then evals else 0)) ;;;
      process s fun _ => fun t' =>
        if t'.1.opt.targetReached then
          (say [.target1 t'.1.opt.targetShown] ;;; quiet (Act.obsEnd1 env) ;;; quiet fun m => (m, .stop)) t'
        else (quiet (Act.storeRef ref) ;;; quiet (Act.obsEnd1 env)) t')
      ({ t.1 with trace := t.1.trace ++ [.search none p (.ok s)] }, t.2)

/-- Stage 1 followed by code using the reference set: src/oqnlp.rs 716-860. -/
def stage1 (env : Env n) (k : List (Pt n) → List F64 → VAct n) : VAct n := say [.stage1] ;;; fun t =>
  match Act.scatter env t.1.opt with
  | .error e => (t, .fail e)
  | .ok r =>
    let ref := r.ref.map Prod.fst
    let objs := r.ref.map Prod.snd
    (quiet (Act.log (.scatter r.evals)) ;;;
      quiet (if t.1.opt.tracks1 then Act.obsScatter env r else Act.skip) ;;;
      quiet (Act.obsScatterDone env ref objs) ;;;
      stage1Local env r.best ref ;;; k ref objs) t

/-- Body of `run` after a possible resume: src/oqnlp.rs 701-1027. -/
def body (env : Env n) (resumed : Bool) : VAct n := fun t =>
  if resumed then
    (say [.resuming t.1.opt.curIter] ;;; stage2 env true (t.1.opt.curRef.getD []) none)
      ({ t.1 with uc := t.1.opt.unchanged }, t.2)
  else
    stage1 env (fun ref objs => quiet (fun m => ({ m with uc := 0 }, .cont)) ;;;
      stage2 env false ref (some objs)) t

end VAct

/-- `OQNLP::run` with verbose output: src/oqnlp.rs 678-1030; the first message of a resumed run is the one of
`restore_from_checkpoint`, 1550-1555. -/
def runV (env : Env n) (o : Opt n) (loaded : Option (Except CkErr (Ckpt n))) :
    RunResult n × List (VLine n) :=
  let m0 := (Act.obsStart env ⟨o, 0, 0, []⟩).1
  match m0.opt.tryResume loaded with
  | .error e => (⟨m0, .error e⟩, [])
  | .ok (o1, resumed) =>
    let r := VAct.body env resumed ({ m0 with opt := o1 },
      if resumed then [.resumed o1.curIter (o1.solset.getD []).length] else [])
    (finish (r.1.1, r.2), r.1.2)

end GS
