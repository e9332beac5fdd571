/- Model of src/oqnlp.rs: construction, stage 1, stage 2 (sequential and parallel), checkpoints.
`verbose` output and the progress bar are not modelled. -/
import Verif.Model.Filters
import Verif.Model.Observer
import Verif.Model.Scatter
import Verif.Model.SolutionSet

namespace GS

/-- `OQNLPError`: src/oqnlp.rs 154-218, plus panics. -/
inductive Err where
  | localSolver (e : LErr)
  | noFeasibleSolution (candidates : Nat)
  | objectiveFailed
  | scatterNew (e : ScatterErr)
  | scatterRun (e : ScatterErr)
  | invalidPopulationSize (p : Nat)
  | invalidIterations (i p : Nat)
  | distanceFilter (e : FilterError)
  | invalidThresholdFactor (t : F64)
  | customDimension (index expected got : Nat)
  | customOutOfBounds (index : Nat)
  | checkpoint (e : CkErr)
  | panic
deriving DecidableEq

/-- `OQNLP`: src/oqnlp.rs 314-422.  `local_solver` is its type and configuration (it keeps those given at
construction); `verbose` and `start_time` are dropped. -/
structure Opt (n : Nat) where
  problem : Problem n
  params : Params
  merit : MeritFilter
  dist : DistanceFilter n
  lsType : SolverType
  lsConfig : SolverConfig
  solset : Option (List (Sol n))
  maxTime : Option F64
  batch : Option Nat
  par : Bool
  target : Option F64
  exclude : Bool
  ckpt : Option CkptConfig
  curIter : Nat
  curRef : Option (List (Pt n))
  unchanged : Nat
  curSeed : Nat
  obs : Option (Obs n)
  custom : Option (List (Pt n))
  absTol : F64
  relTol : F64

/-- Everything a run meets from outside: local solver numerics, threads, schedules, clock, disk,
callbacks, arithmetic mode: the calls out of src/oqnlp.rs 678-1031, 1590-2110. -/
structure Env (n : Nat) where
  rt : Rt n
  sched : Sched
  /-- local solver: result and number of objective evaluations -/
  solve : SolverType → SolverConfig → Pt n → Except LErr (Sol n × Nat)
  /-- `rayon::current_num_threads()` -/
  threads : Nat
  /-- completion order of the objective evaluations of the parallel batch starting at an iteration -/
  evalOrder : Nat → List Nat
  /-- completion order of the local searches of the parallel batch starting at an iteration -/
  solveOrder : Nat → List Nat
  /-- seconds elapsed at the `k`-th timeout check -/
  clock : Nat → F64
  /-- elapsed time and timestamp written into the `k`-th checkpoint -/
  stamp : Nat → F64 × String
  /-- disk error met by the `k`-th checkpoint write -/
  io : Nat → Option CkErr
  /-- effect of callback `id` at invocation `stamp` on the observer -/
  cb : Nat → Nat → Obs n → Obs n
  /-- `Instant::now()` at a program point (observer timers) -/
  time : Nat → Nat
  /-- build with arithmetic overflow checks (debug profile) -/
  overflowChecks : Bool
  /-- build with the feature `checkpointing` -/
  checkpointing : Bool

/-- Observable events of a run: ghost record of what src/oqnlp.rs 678-1031, 1590-2110 does. -/
inductive Event (n : Nat) where
  /-- scatter search finished after `evals` objective evaluations -/
  | scatter (evals : Nat)
  /-- stage 2 evaluated the objective itself -/
  | evaluate (iter : Nat) (p : Pt n)
  /-- stage 2 compared the point with the filters -/
  | examine (iter : Nat) (p : Pt n) (merit : F64) (passed : Bool)
  /-- local search started from `p`; `none` is the stage-1 search -/
  | search (iter : Option Nat) (p : Pt n) (result : Except LErr (Sol n))
  /-- a local solution was handed to `process_local_solution` -/
  | processed (s : Sol n) (v : Verdict)
  /-- wait cycle expired, the merit threshold was relaxed -/
  | relaxed (iter : Nat) (new : F64)
  /-- the observer's callback was invoked and shown `seen`, when the merit threshold and the number of unchanged
  cycles were `now` -/
  | callback (stamp : Nat) (seen : Obs n) (now : F64 × Nat)
  /-- a checkpoint was written -/
  | saved (iter : Nat) (c : Ckpt n)
  /-- a checkpoint write failed, possibly leaving a partial file -/
  | saveFailed (iter : Nat) (c : Ckpt n)

/-- State of a run: the optimizer, the local variable `unchanged_cycles`, the number of checkpoint writes
so far and the (ghost) event trace: src/oqnlp.rs 678-1031, where `unchanged_cycles` is a local variable. -/
structure M (n : Nat) where
  opt : Opt n
  uc : Nat
  saves : Nat
  trace : List (Event n)

/-- Outcome of a piece of code: fall through, `return Ok(())` early, or `return Err`/panic: control flow
(`?`, `return`) of src/oqnlp.rs 678-1031, 1629-2110. -/
inductive Out where
  | cont
  | stop
  | fail (e : Err)
deriving DecidableEq

/-- A piece of code acting on the run state: control flow (`?`, `return`) of src/oqnlp.rs 678-1031,
1629-2110. -/
abbrev Act (n : Nat) := M n → M n × Out

/-- Sequencing with early exit: control flow (`?`, `return`) of src/oqnlp.rs 678-1031, 1629-2110. -/
def Act.seq {n : Nat} (a b : Act n) : Act n := fun m =>
  match a m with
  | (m', .cont) => b m'
  | r => r

@[inherit_doc] infixr:60 " ;; " => Act.seq

namespace Opt
variable {n : Nat}

/-- `OQNLP::new`: src/oqnlp.rs 438-499. -/
def new (problem : Problem n) (params : Params) : Except Err (Opt n) :=
  if params.populationSize ≤ 3 then .error (.invalidPopulationSize params.populationSize)
  else if params.iterations > params.populationSize then
    .error (.invalidIterations params.iterations params.populationSize)
  else if F64.le params.thresholdFactor F64.zero then
    .error (.invalidThresholdFactor params.thresholdFactor)
  else
    match DistanceFilter.new (n := n)
        ⟨params.distanceFactor, params.waitCycle, params.thresholdFactor⟩ with
    | .error e => .error (.distanceFilter e)
    | .ok df => .ok
      { problem := problem, params := params, merit := MeritFilter.new, dist := df
        lsType := params.solverType, lsConfig := params.solverConfig, solset := none
        maxTime := none, batch := none, par := true, target := none, exclude := false
        ckpt := none, curIter := 0, curRef := none, unchanged := 0, curSeed := params.seed
        obs := none, custom := none, absTol := F64.lit 1 (10 ^ 8), relTol := F64.lit 1 (10 ^ 6) }

/-- `add_observer`: src/oqnlp.rs 579-582. -/
def addObserver (o : Opt n) (b : Obs n) : Opt n := { o with obs := some b }

/-- Row of an `Array2` as a point, if it has the problem dimension: `with_points`: src/oqnlp.rs 643-676. -/
def rowPt (l : List F64) : Option (Pt n) :=
  if h : l.length = n then some fun i => l[i.val]'(h ▸ i.isLt) else none

/-- Validation loop of `with_points`: src/oqnlp.rs 649-671; `i` is the row index. -/
def checkRows (p : Problem n) : Nat → List (List F64) → Except Err (List (Pt n))
  | _, [] => .ok []
  | i, row :: rest =>
    match rowPt (n := n) row with
    | none => .error (.customDimension i n row.length)
    | some x =>
      if withinBounds p x then
        match checkRows p (i + 1) rest with
        | .error e => .error e
        | .ok l => .ok (x :: l)
      else .error (.customOutOfBounds i)

/-- `with_points`: src/oqnlp.rs 643-675 (rows of the `Array2`). -/
def withPoints (o : Opt n) (rows : List (List F64)) : Except Err (Opt n) :=
  match checkRows o.problem 0 rows with
  | .error e => .error e
  | .ok l => .ok { o with custom := some l }

/-- `max_time`: src/oqnlp.rs 1188-1191. -/
def setMaxTime (o : Opt n) (t : F64) : Opt n := { o with maxTime := some t }
/-- `batch_iterations`: src/oqnlp.rs 1206-1218. -/
def setBatch (o : Opt n) (b : Nat) : Opt n := { o with batch := some b }
/-- `parallel`: src/oqnlp.rs 1260-1263. -/
def setParallel (o : Opt n) (b : Bool) : Opt n := { o with par := b }
/-- `target_objective`: src/oqnlp.rs 1293-1296. -/
def setTarget (o : Opt n) (t : F64) : Opt n := { o with target := some t }
/-- `set_exclude_out_of_bounds`/`exclude_out_of_bounds`: src/oqnlp.rs 1302-1305, 1349-1351. -/
def setExclude (o : Opt n) (b : Bool) : Opt n := { o with exclude := b }
/-- `with_tolerance`: src/oqnlp.rs 1338-1342. -/
def withTolerance (o : Opt n) (a r : F64) : Opt n := { o with absTol := a, relTol := r }
/-- `with_checkpointing`: src/oqnlp.rs 1357-1360 (directory creation succeeded). -/
def withCheckpointing (o : Opt n) (c : CkptConfig) : Opt n := { o with ckpt := some c }

/-- Settings read when a local solution is processed: the fields read by src/oqnlp.rs 1074-1180. -/
def setCfg (o : Opt n) : SetCfg n :=
  ⟨o.problem, o.exclude, o.absTol, o.relTol, o.params.distanceFactor⟩

/-- `should_start_local`: src/oqnlp.rs 1034-1038. -/
def shouldStart (o : Opt n) (p : Pt n) (obj : F64) : Bool :=
  F64.le obj o.merit.threshold && o.dist.check p

/-- `target_objective_reached`: src/oqnlp.rs 1041-1055. -/
def targetReached (o : Opt n) : Bool :=
  match o.target, o.solset with
  | some t, some set =>
    match bestSolution set with
    | some b => F64.le b.objective t && (!o.exclude || withinBounds o.problem b.point)
    | none => false
  | _, _ => false

/-- Apply a function to the observer, if there is one: `if let Some(ref mut observer) = self.observer`,
e.g. src/oqnlp.rs 680-690. -/
def mapObs (o : Opt n) (f : Obs n → Obs n) : Opt n := { o with obs := o.obs.map f }

/-- Does the observer track stage 2?  (decides whether evaluations are counted): src/oqnlp.rs 779,
1694-1696, 1891-1892, 1999-2001. -/
def tracks2 (o : Opt n) : Bool := (o.obs.map Obs.should2).getD false
/-- Does the observer track stage 1? src/oqnlp.rs 779, 1694-1696, 1891-1892, 1999-2001. -/
def tracks1 (o : Opt n) : Bool := (o.obs.map Obs.should1).getD false

/-- `process_local_solution`: src/oqnlp.rs 1074-1168; the verdict `panic` is `solutions[0]` on an
empty set. -/
def process (o : Opt n) (s : Sol n) : Opt n × Verdict :=
  let v := classify o.setCfg o.solset s
  if v = .panic then (o, v)
  else
    let o1 := { o with solset := newSet v o.solset s }
    let o2 := if v.setsThreshold then { o1 with merit := o1.merit.update s.objective } else o1
    let o3 := if v.reports then o2.mapObs (·.mod2 (·.setLastAdded s.point)) else o2
    ({ o3 with dist := o3.dist.add s }, v)

/-- `adjust_threshold`: src/oqnlp.rs 1622-1626. -/
def relaxed (factor t : F64) : F64 := t.add (factor.mul (F64.one.add t.abs))

/-- `create_checkpoint`: src/oqnlp.rs 1562-1586. -/
def createCkpt (o : Opt n) (st : F64 × String) : Ckpt n where
  params := o.params
  currentIteration := o.curIter
  meritThreshold := o.merit.threshold
  solutionSet := o.solset
  referenceSet := o.curRef.getD []
  unchangedCycles := o.unchanged
  elapsedTime := st.1
  distanceFilterSolutions := o.dist.solutions
  currentSeed := o.curSeed
  targetObjective := o.target
  excludeOutOfBounds := o.exclude
  batchIterations := o.batch
  enableParallel := o.par
  absTol := o.absTol
  relTol := o.relTol
  timestamp := st.2

/-- `restore_from_checkpoint`: src/oqnlp.rs 1512-1558. -/
def restore (o : Opt n) (c : Ckpt n) : Opt n :=
  { o with
    params := c.params
    curIter := c.currentIteration
    merit := o.merit.update c.meritThreshold
    solset := c.solutionSet
    curRef := some c.referenceSet
    unchanged := c.unchangedCycles
    curSeed := c.currentSeed
    target := c.targetObjective
    exclude := c.excludeOutOfBounds
    batch := c.batchIterations
    par := c.enableParallel
    absTol := c.absTol
    relTol := c.relTol
    dist := o.dist.setSolutions c.distanceFilterSolutions }

/-- `a + b` on `u64`: `none` is the overflow panic of builds with overflow checks. -/
def addU64 (checks : Bool) (a b : Nat) : Option Nat :=
  if a + b < 2 ^ 64 then some (a + b) else if checks then none else some ((a + b) % 2 ^ 64)

/-- `current_seed` of an iteration: src/oqnlp.rs 1650-1653, 1845, 1925, 1994.  Builds without `checkpointing`
compute nothing here; the model keeps a ghost value that nothing reads. -/
def iterSeed (env : Env n) (seed iter : Nat) : Option Nat :=
  addU64 (env.overflowChecks && env.checkpointing) seed iter

/-- Seed for shuffling the reference set of a fresh run: src/oqnlp.rs 908-920. -/
def shuffleSeed (env : Env n) (seed cur : Nat) : Option Nat :=
  if env.checkpointing then addU64 env.overflowChecks seed cur else some seed

/-- `try_resume_from_checkpoint`: src/oqnlp.rs 1366-1375.  `loaded` is what the manager finds: `none` if
`checkpoint_exists()` is false, otherwise the result of `load_latest_checkpoint()`. -/
def tryResume (o : Opt n) (loaded : Option (Except CkErr (Ckpt n))) : Except Err (Opt n × Bool) :=
  match o.ckpt with
  | none => .ok (o, false)
  | some cfg =>
    if cfg.autoResume then
      match loaded with
      | none => .ok (o, false)
      | some (.error e) => .error (.checkpoint e)
      | some (.ok c) => .ok (o.restore c, true)
    else .ok (o, false)

/-- `expand_reference_set`: src/oqnlp.rs 1448-1478. -/
def expand (env : Env n) (o : Opt n) (ref : List (Pt n)) (oldSize newSize : Nat) :
    Except Err (List (Pt n)) :=
  if newSize ≤ oldSize then .ok ref
  else
    match addU64 env.overflowChecks o.curSeed ref.length with
    | none => .error .panic
    | some seed =>
      match Scatter.new o.problem { o.params with populationSize := newSize, seed := seed } with
      | .error e => .error (.scatterNew e)
      | .ok s =>
        match (s.setParallel o.par).diversify env.rt env.sched ref with
        | .error e => .error (.scatterNew e)
        | .ok r => .ok r.2

/-- `resume_with_modified_params`: src/oqnlp.rs 1382-1441. -/
def resumeWith (env : Env n) (o : Opt n) (loaded : Option (Except CkErr (Ckpt n)))
    (new : Params) : Except Err (Opt n × Bool) :=
  match o.ckpt, loaded with
  | some _, some (.error e) => .error (.checkpoint e)
  | some _, some (.ok c) =>
    if new.populationSize > c.params.populationSize then
      match o.expand env c.referenceSet c.params.populationSize new.populationSize with
      | .error e => .error e
      | .ok ref => .ok (o.restore { c with referenceSet := ref, params := new }, true)
    else .ok (o.restore { c with params := new }, true)
  | _, _ => .ok (o, false)

/-- `resume_from_checkpoint_with_params`: src/oqnlp.rs 1482-1508. -/
def resumeFrom (o : Opt n) (loaded : Except CkErr (Ckpt n)) (new : Params) : Except Err (Opt n) :=
  match o.ckpt, loaded with
  | some _, .error e => .error (.checkpoint e)
  | some _, .ok c => .ok (o.restore { c with params := new })
  | none, _ => .ok o

/-- `effective_batch_size`: src/oqnlp.rs 938-953. -/
def effBatch (threads : Nat) (o : Opt n) (startIter : Nat) : Nat :=
  if !o.par then 1
  else
    match o.batch with
    | some b => b
    | none =>
      let rem := o.params.iterations - startIter
      if rem < 4 || threads == 1 then 1
      else Nat.max 2 (Nat.min 8 (rem / (threads * 2)))

end Opt

/-- `slice.chunks(k)` for `k > 0`: src/oqnlp.rs 962. -/
def chunksF {α : Type} (k : Nat) : Nat → List α → List (List α)
  | 0, _ => []
  | _ + 1, [] => []
  | f + 1, a :: l => (a :: l).take k :: chunksF k f ((a :: l).drop k)

/-- `slice.chunks(k)` for `k > 0` (used at src/oqnlp.rs 962). -/
def chunks {α : Type} (k : Nat) (l : List α) : List (List α) := chunksF k l.length l

namespace Act
variable {n : Nat}

/-- No operation: control flow of src/oqnlp.rs 678-1031, 1629-2110. -/
def skip : Act n := fun m => (m, .cont)
/-- `return Err(e)` or panic: control flow of src/oqnlp.rs 678-1031, 1629-2110. -/
def fail (e : Err) : Act n := fun m => (m, .fail e)
/-- Change the optimizer: control flow of src/oqnlp.rs 678-1031, 1629-2110. -/
def modify (f : Opt n → Opt n) : Act n := fun m => ({ m with opt := f m.opt }, .cont)
/-- Record an event: ghost; no counterpart in /repo. -/
def log (e : Event n) : Act n := fun m => ({ m with trace := m.trace ++ [e] }, .cont)

/-- Bookkeeping at the start of an iteration: src/oqnlp.rs 1643-1653, 1840-1845, 1920-1925, 1989-1994.  In
builds without `checkpointing` there are no such fields; the model's are then ghosts. -/
def beginIter (env : Env n) (iter : Nat) : Act n := fun m =>
  let o := { m.opt with curIter := iter, unchanged := m.uc }
  match Opt.iterSeed env o.params.seed iter with
  | none => ({ m with opt := o }, .fail .panic)
  | some sd => ({ m with opt := { o with curSeed := sd } }, .cont)

/-- Observer update at an iteration: src/oqnlp.rs 1657-1666, 1861-1870, 1954-1963, 2029-2038. -/
def obsIter (iter : Nat) : Act n := fun m =>
  ({ m with opt := m.opt.mapObs fun b => b.upd2 fun s =>
      ((s.setIteration iter).setUnchanged m.uc).setThreshold m.opt.merit.threshold }, .cont)

/-- Observer counts stage-2 evaluations: src/oqnlp.rs 1681-1688, 1820-1827. -/
def obsEvals (k : Nat) : Act n := modify fun o => o.mapObs fun b => b.upd2 (·.addEvals k)

/-- `merit_filter.update_threshold(obj)`: src/oqnlp.rs 1691, 1927, 1996. -/
def setThreshold (obj : F64) : Act n := modify fun o => { o with merit := o.merit.update obj }

/-- `process_local_solution(..)?` followed by code using its result: src/oqnlp.rs 808, 1706, 1928, 2011. -/
def process (s : Sol n) (k : Verdict → Act n) : Act n := fun m =>
  let r := m.opt.process s
  let m' := { m with opt := r.1, trace := m.trace ++ [.processed s r.2] }
  if r.2 = .panic then (m', .fail .panic) else k r.2 m'

/-- Observer update after a local search: src/oqnlp.rs 1708-1722, 1930-1944, 2013-2027. -/
def obsLocal (added : Bool) (evals : Nat) : Act n := modify fun o => o.mapObs fun b =>
  b.upd2 fun s =>
    let s := (s.addLocalCall added).addEvals evals
    match o.solset with
    | none => s
    | some set =>
      let s := match bestSolution set with
        | some best => s.setBest best.objective best.point
        | none => s
      s.setSize set.length

/-- Early return when the target is reached: src/oqnlp.rs 1732-1742, 1972-1981, 2053-2062. -/
def stopIfTarget : Act n := fun m => (m, if m.opt.targetReached then .stop else .cont)

/-- A point rejected by the filters: src/oqnlp.rs 1744-1758, 1847-1859. -/
def reject (iter : Nat) : Act n := fun m =>
  if m.opt.params.waitCycle ≤ m.uc + 1 then
    let t := Opt.relaxed m.opt.params.thresholdFactor m.opt.merit.threshold
    ({ m with opt := { m.opt with merit := m.opt.merit.update t }, uc := 0
              trace := m.trace ++ [.relaxed iter t] }, .cont)
  else ({ m with uc := m.uc + 1 }, .cont)

/-- `invoke_callback` at invocation `stamp`: src/observers/mod.rs 1078-1085, called at src/oqnlp.rs 766,
805, 828, 854, 1764, 1875, 1968, 2042. -/
def invoke (env : Env n) (stamp : Nat) : Act n := fun m =>
  match m.opt.obs with
  | none => (m, .cont)
  | some b =>
    ({ m with opt := { m.opt with obs := some (b.invoke env.cb stamp) }
              trace := if b.callback.isSome then m.trace ++ [.callback stamp b (m.opt.merit.threshold, m.uc)]
                else m.trace }, .cont)

/-- Stage-2 callback with frequency test: src/oqnlp.rs 1761-1766, 1872-1877, 1965-1970.  Invocation
stamps of stage 2 are 16 + iteration. -/
def callback (env : Env n) (iter : Nat) : Act n := fun m =>
  match m.opt.obs with
  | none => (m, .cont)
  | some b =>
    match b.shouldInvoke iter with
    | none => (m, .fail .panic)
    | some true => invoke env (16 + iter) m
    | some false => (m, .cont)

/-- Write a checkpoint: src/oqnlp.rs 1593-1594, 1608-1609. -/
def writeCkpt (env : Env n) : Act n := fun m =>
  let c := m.opt.createCkpt (env.stamp m.saves)
  match env.io m.saves with
  | some e => ({ m with saves := m.saves + 1, trace := m.trace ++ [.saveFailed m.opt.curIter c] },
      .fail (.checkpoint e))
  | none => ({ m with saves := m.saves + 1, trace := m.trace ++ [.saved m.opt.curIter c] }, .cont)

/-- `maybe_save_checkpoint`: src/oqnlp.rs 1590-1602. -/
def save (env : Env n) : Act n := fun m =>
  match m.opt.ckpt with
  | none => (m, .cont)
  | some cfg =>
    if cfg.saveFrequency = 0 then (m, .fail .panic)
    else if m.opt.curIter % cfg.saveFrequency = 0 then writeCkpt env m
    else (m, .cont)

/-- `maybe_save_final_checkpoint`: src/oqnlp.rs 1606-1616. -/
def saveFinal (env : Env n) : Act n := fun m =>
  match m.opt.ckpt with
  | none => (m, .cont)
  | some _ => writeCkpt env m

/-- Run a local search with the given solver and continue with its result: src/oqnlp.rs 779-795,
1692-1704, 1997-2009. -/
def search (env : Env n) (ty : SolverType) (cfg : SolverConfig) (iter : Option Nat) (p : Pt n)
    (k : Sol n → Nat → Act n) : Act n := fun m =>
  match env.solve ty cfg p with
  | .error e =>
    ({ m with trace := m.trace ++ [.search iter p (.error e)] }, .fail (.localSolver e))
  | .ok (s, evals) =>
    k s (if m.opt.tracks2 then evals else 0)
      { m with trace := m.trace ++ [.search iter p (.ok s)] }

/-- Merit value of an iteration: the cached objective at position `iter % len`, or a fresh
evaluation: src/oqnlp.rs 1668-1679. -/
def meritValue (o : Opt n) (objs : Option (List F64)) (iter : Nat) (p : Pt n) : Except Err F64 :=
  match objs with
  | some l =>
    match l[iter % l.length]? with
    | some v => .ok v
    | none => .error .panic
  | none =>
    match o.problem.objective p with
    | .ok v => .ok v
    | .error _ => .error .objectiveFailed

/-- Obtain the merit value and continue: src/oqnlp.rs 1668-1688. -/
def getMerit (objs : Option (List F64)) (iter : Nat) (p : Pt n) (k : F64 → Act n) : Act n := fun m =>
  let m1 := if objs.isNone then { m with trace := m.trace ++ [.evaluate iter p] } else m
  match meritValue m.opt objs iter p with
  | .error e => (m1, .fail e)
  | .ok v => ((if objs.isNone then obsEvals 1 else skip) ;; k v) m1

/-- Accepted point in sequential stage 2: src/oqnlp.rs 1691-1742. -/
def localSeq (env : Env n) (iter : Nat) (p : Pt n) (obj : F64) : Act n := fun m =>
  (setThreshold obj ;; search env m.opt.lsType m.opt.lsConfig (some iter) p fun s evals =>
    process s fun v => obsLocal v.returned evals ;; stopIfTarget) m

/-- One iteration of `process_batch_sequential`: src/oqnlp.rs 1637-1771. -/
def stepSeq (env : Env n) (resumed : Bool) (startIter : Nat) (objs : Option (List F64))
    (it : Nat × Pt n) : Act n :=
  if resumed && it.1 < startIter then skip
  else
    beginIter env it.1 ;; obsIter it.1 ;; getMerit objs it.1 it.2 fun v => fun m =>
      (log (.examine it.1 it.2 v (m.opt.shouldStart it.2 v)) ;;
       (if m.opt.shouldStart it.2 v then localSeq env it.1 it.2 v else reject it.1) ;;
       callback env it.1 ;; save env) m

/-- Run a list of actions one after another: the loops of src/oqnlp.rs 962, 1640, 1830, 1926, 1990. -/
def all : List (Act n) → Act n
  | [] => skip
  | a :: l => a ;; all l

/-- `process_batch_sequential`: src/oqnlp.rs 1629-1773. -/
def batchSeq (env : Env n) (resumed : Bool) (startIter : Nat) (objs : Option (List F64))
    (items : List (Nat × Pt n)) : Act n :=
  all (items.map (stepSeq env resumed startIter objs))

/-- Result slots after the tasks listed in `order` have completed: src/oqnlp.rs 1797-1818, 1894-1925
(dependency `rayon`). -/
def parSlots {α β : Type} (f : α → β) (l : List α) (order : List Nat) : List (Option β) :=
  order.foldl (fun slots i => match l[i]? with
    | some a => slots.set i (some (f a))
    | none => slots) (l.map fun _ => none)

/-- `par_iter().map(f).collect::<Result<Vec<_>, _>>()` when tasks complete in the given order: an indexed
collect writes every result into its slot; if tasks fail, the error seen first is returned: src/oqnlp.rs
1797-1818, 1894-1925 (dependency `rayon`). -/
def parCollect {α β : Type} (f : α → Except Err β) (l : List α) (order : List Nat) :
    Except Err (List β) :=
  match order.findSome? (fun i => (l[i]?).bind fun a => match f a with
      | .error e => some e
      | .ok _ => none) with
  | some e => .error e
  | none =>
    match optAll (parSlots f l order) with
    | none => .error .panic
    | some rs => rs.foldr (fun r acc => match r, acc with
        | .ok b, .ok bs => .ok (b :: bs)
        | .error e, _ => .error e
        | _, .error e => .error e) (.ok [])

/-- Rejected point in parallel stage 2: src/oqnlp.rs 1839-1881. -/
def quickPar (env : Env n) (iter : Nat) : Act n :=
  beginIter env iter ;; reject iter ;; obsIter iter ;; callback env iter ;; save env

/-- Processing of one local result in parallel stage 2: src/oqnlp.rs 1919-1985. -/
def resultPar (env : Env n) (iter : Nat) (obj : F64) (s : Sol n) (evals : Nat) : Act n :=
  beginIter env iter ;; setThreshold obj ;; process s fun v =>
    obsLocal v.returned evals ;; obsIter iter ;; callback env iter ;; stopIfTarget ;; save env

/-- Single local candidate of a parallel batch: src/oqnlp.rs 1988-2066. -/
def singlePar (env : Env n) (iter : Nat) (p : Pt n) (obj : F64) : Act n := fun m =>
  (beginIter env iter ;; setThreshold obj ;;
    search env m.opt.lsType m.opt.lsConfig (some iter) p fun s evals =>
      process s fun v =>
        obsLocal v.returned evals ;; obsIter iter ;; invoke env (16 + iter) ;; stopIfTarget ;;
          save env) m

/-- One parallel local search with a fresh solver built from `params`: src/oqnlp.rs 1897-1913. -/
def solveTask (env : Env n) (o : Opt n) (c : Nat × Pt n × F64) :
    Except Err (Nat × F64 × Sol n × Nat) :=
  match env.solve o.params.solverType o.params.solverConfig c.2.1 with
  | .error e => .error (.localSolver e)
  | .ok (s, e) => .ok (c.1, c.2.2, s, if o.tracks2 then e else 0)

/-- The event recorded for a parallel local search: src/oqnlp.rs 1894-1925. -/
def solveEvent (env : Env n) (o : Opt n) (c : Nat × Pt n × F64) : Event n :=
  .search (some c.1) c.2.1
    ((env.solve o.params.solverType o.params.solverConfig c.2.1).map Prod.fst)

/-- Two or more local candidates: src/oqnlp.rs 1886-1985.  All searches of a group are recorded as
started. -/
def groupPar (env : Env n) (first : Nat) (cands : List (Nat × Pt n × F64)) : Act n := fun m =>
  match parCollect (solveTask env m.opt) cands (env.solveOrder first) with
  | .error e => ({ m with trace := m.trace ++ cands.map (solveEvent env m.opt) }, .fail e)
  | .ok rs => all (rs.map fun r => resultPar env r.1 r.2.1 r.2.2.1 r.2.2.2)
      { m with trace := m.trace ++ cands.map (solveEvent env m.opt) }

/-- The local candidates of a parallel batch: src/oqnlp.rs 1884-2067. -/
def localsPar (env : Env n) (first : Nat) (cands : List (Nat × Pt n × F64)) : Act n := fun m =>
  if 2 ≤ cands.length && m.opt.par then groupPar env first cands m
  else all (cands.map fun c => singlePar env c.1 c.2.1 c.2.2) m

/-- Merit value of one item of a parallel batch: src/oqnlp.rs 1800-1815. -/
def evalTask (o : Opt n) (objs : Option (List F64)) (it : Nat × Pt n) :
    Except Err (Nat × Pt n × F64) :=
  (meritValue o objs it.1 it.2).map fun v => (it.1, it.2, v)

/-- Does an evaluated item pass the filters?  src/oqnlp.rs 1832-1836. -/
def passes (o : Opt n) (c : Nat × Pt n × F64) : Bool := o.shouldStart c.2.1 c.2.2

/-- The part of `process_batch_parallel` after the evaluation: src/oqnlp.rs 1820-2111. -/
def afterEval (env : Env n) (objs : Option (List F64)) (first : Nat)
    (vals : List (Nat × Pt n × F64)) : Act n := fun m =>
  ((if objs.isNone then obsEvals vals.length else skip) ;;
    all ((vals.filter fun c => !passes m.opt c).map fun c => quickPar env c.1) ;;
    localsPar env first (vals.filter (passes m.opt)))
    { m with trace := m.trace ++ vals.map fun c => Event.examine c.1 c.2.1 c.2.2 (passes m.opt c) }

/-- Record the evaluations of a parallel batch, if the objectives are not cached: src/oqnlp.rs 1797-1827. -/
def logEvals (objs : Option (List F64)) (its : List (Nat × Pt n)) (m : M n) : M n :=
  if objs.isNone then
    { m with trace := m.trace ++ its.map fun it => Event.evaluate it.1 it.2 } else m

/-- `process_batch_parallel` on the items left after filtering: src/oqnlp.rs 1792-2112. -/
def batchParItems (env : Env n) (objs : Option (List F64)) : List (Nat × Pt n) → Act n
  | [] => skip
  | it0 :: its => fun m =>
    match parCollect (evalTask m.opt objs) (it0 :: its) (env.evalOrder it0.1) with
    | .error e => (logEvals objs (it0 :: its) m, .fail e)
    | .ok vals => afterEval env objs it0.1 vals (logEvals objs (it0 :: its) m)

/-- `process_batch_parallel`: src/oqnlp.rs 1777-2112. -/
def batchPar (env : Env n) (resumed : Bool) (startIter : Nat) (objs : Option (List F64))
    (batch : List (Nat × Pt n)) : Act n :=
  batchParItems env objs
    (if resumed then batch.filter (fun it => startIter ≤ it.1) else batch)

/-- Timeout test before the `k`-th batch: src/oqnlp.rs 964-971. -/
def timedOut (env : Env n) (o : Opt n) (k : Nat) : Bool :=
  match o.maxTime with
  | some t => F64.gt (env.clock k) t
  | none => false

/-- Choice of the batch function: src/oqnlp.rs 975-991. -/
def procBatch (env : Env n) (resumed : Bool) (startIter : Nat) (objs : Option (List F64))
    (eff : Nat) (batch : List (Nat × Pt n)) : Act n :=
  if 1 < eff then batchPar env resumed startIter objs batch
  else batchSeq env resumed startIter objs batch

/-- Stage-2 loop over the batches: src/oqnlp.rs 962-1014; `k` counts timeout checks. -/
def loop (env : Env n) (resumed : Bool) (startIter : Nat) (objs : Option (List F64)) (eff : Nat) :
    Nat → List (List (Nat × Pt n)) → Act n
  | _, [] => skip
  | k, batch :: rest => fun m =>
    if timedOut env m.opt k then (m, .cont)
    else
      match procBatch env resumed startIter objs eff batch m with
      | (m', .fail e) => (m', .fail e)
      | (m', _) => if m'.opt.targetReached then (m', .cont)
        else loop env resumed startIter objs eff (k + 1) rest m'

/-- Items of stage 2: src/oqnlp.rs 959-960. -/
def items (iterations startIter : Nat) (ref : List (Pt n)) : List (Nat × Pt n) :=
  (((ref.take iterations).zipIdx).map fun q => (q.2, q.1)).drop startIter

/-- Observer updates around stage 2: src/oqnlp.rs 866-882. -/
def obsStart2 (env : Env n) : Act n := modify fun o => o.mapObs fun b =>
  (b.upd2 fun s =>
    let s := s.start (env.time 10)
    let s := match o.solset with
      | none => s
      | some set =>
        let s := match bestSolution set with
          | some best => s.setBest best.objective best.point
          | none => s
        s.setSize set.length
    s.setThreshold o.merit.threshold).markStage2Started

/-- Stage-2 end for the observer: src/oqnlp.rs 1016-1023. -/
def obsEnd2 (env : Env n) : Act n := modify fun o => o.mapObs fun b => b.upd2 (·.finish (env.time 11))

/-- Main part of stage 2 on the (shuffled) points `ref`: src/oqnlp.rs 936-1027. -/
def stage2Main (env : Env n) (resumed : Bool) (startIter : Nat) (ref : List (Pt n))
    (objs : Option (List F64)) : Act n := fun m =>
  if m.opt.effBatch env.threads startIter = 0 then (m, .fail .panic)
  else
    (loop env resumed startIter objs (m.opt.effBatch env.threads startIter) 0
        (chunks (m.opt.effBatch env.threads startIter)
          (items m.opt.params.iterations startIter ref)) ;;
      obsEnd2 env ;; saveFinal env) m

/-- `self.current_seed = seed`: src/oqnlp.rs 915. -/
def setSeed (sd : Nat) : Act n := modify fun o => { o with curSeed := sd }

/-- Stage 2: src/oqnlp.rs 866-1027.  `ref` is the reference set before shuffling. -/
def stage2 (env : Env n) (resumed : Bool) (ref : List (Pt n)) (objs : Option (List F64)) : Act n :=
  obsStart2 env ;; fun m =>
    if resumed then stage2Main env true m.opt.curIter ref objs m
    else
      match Opt.shuffleSeed env m.opt.params.seed m.opt.curIter with
      | none => (m, .fail .panic)
      | some sd => (setSeed sd ;; stage2Main env false 0 (env.rt.shuffle sd ref) objs) m

/-- Observer updates of `ScatterSearch::run`: src/scatter_search.rs 256-274, 294-304; only if the
observer was attached (src/oqnlp.rs 736-737). -/
def obsScatter (env : Env n) (r : Scatter.Result n) : Act n :=
  modify (fun o => o.mapObs fun b => b.upd1 fun s =>
    (s.enterSubstage .initializationComplete (env.time 1)).setRefSetSize 3) ;;
  invoke env 1 ;;
  modify (fun o => o.mapObs fun b => b.upd1 fun s =>
    ((s.enterSubstage .diversificationComplete (env.time 2)).setRefSetSize r.initLen).addEvals
      r.initLen) ;;
  invoke env 2 ;;
  modify (fun o => o.mapObs fun b => b.upd1 fun s =>
    ((s.enterSubstage .intensificationComplete (env.time 3)).addTrialPoints
      r.trialLen).setRefSetSize r.finalLen) ;;
  invoke env 3

/-- Observer after scatter search: src/oqnlp.rs 749-776. -/
def obsScatterDone (env : Env n) (ref : List (Pt n)) (objs : List F64) : Act n :=
  modify (fun o => o.mapObs fun b => b.upd1 fun s =>
    let s := (s.enterSubstage .scatterSearchComplete (env.time 4)).setRefSetSize ref.length
    match reduceSeq (minOp Prod.snd) (ref.zip objs) with
    | some (p, v) => s.setBest v p
    | none => s) ;;
  invoke env 4 ;;
  modify (fun o => o.mapObs fun b => b.upd1 (·.enterSubstage .localOptimization (env.time 5)))

/-- Observer after the stage-1 local search: src/oqnlp.rs 795-806. -/
def obsLocal1 (env : Env n) (s : Sol n) (evals : Nat) : Act n :=
  modify (fun o => o.mapObs fun b => b.upd1 fun st =>
    ((st.enterSubstage .localOptimizationComplete (env.time 6)).setBest s.objective
      s.point).addEvals evals) ;;
  invoke env 6

/-- Observer at the end of stage 1: src/oqnlp.rs 819-831, 845-857. -/
def obsEnd1 (env : Env n) : Act n :=
  modify (fun o => o.mapObs fun b => b.upd1 fun s =>
    (s.enterSubstage .stage1Complete (env.time 7)).finish (env.time 8)) ;;
  invoke env 7 ;;
  modify (fun o => o.mapObs (·.markStage1Complete))

/-- The scatter search started by stage 1: src/oqnlp.rs 722-743. -/
def scatter (env : Env n) (o : Opt n) : Except Err (Scatter.Result n) :=
  match Scatter.new o.problem o.params with
  | .error e => .error (.scatterNew e)
  | .ok s =>
    let s := s.setParallel o.par
    let s := match o.custom with
      | some l => s.withCustom l
      | none => s
    match s.run env.rt env.sched with
    | .error e => .error (.scatterRun e)
    | .ok r => .ok r

/-- `self.current_reference_set = Some(ref_set.clone())`: src/oqnlp.rs 842. -/
def storeRef (ref : List (Pt n)) : Act n := modify fun o => { o with curRef := some ref }

/-- First local search and the end of stage 1: src/oqnlp.rs 778-859.  A `stop` outcome is the early
return of the whole run because the target is reached. -/
def stage1Local (env : Env n) (p : Pt n) (ref : List (Pt n)) : Act n := fun m =>
  match env.solve m.opt.lsType m.opt.lsConfig p with
  | .error e =>
    ({ m with trace := m.trace ++ [.search none p (.error e)] }, .fail (.localSolver e))
  | .ok (s, evals) =>
    (setThreshold s.objective ;;
      obsLocal1 env s (if m.opt.tracks1 then evals else 0) ;;
      process s fun _ => fun m' =>
        if m'.opt.targetReached then (obsEnd1 env ;; fun m'' => (m'', .stop)) m'
        else (storeRef ref ;; obsEnd1 env) m')
      { m with trace := m.trace ++ [.search none p (.ok s)] }

/-- Stage 1 followed by code using the reference set: src/oqnlp.rs 716-860. -/
def stage1 (env : Env n) (k : List (Pt n) → List F64 → Act n) : Act n := fun m =>
  match scatter env m.opt with
  | .error e => (m, .fail e)
  | .ok r =>
    let ref := r.ref.map Prod.fst
    let objs := r.ref.map Prod.snd
    (log (.scatter r.evals) ;;
      (if m.opt.tracks1 then obsScatter env r else skip) ;;
      obsScatterDone env ref objs ;;
      stage1Local env r.best ref ;; k ref objs) m

/-- Body of `run` after a possible resume: src/oqnlp.rs 701-1027. -/
def body (env : Env n) (resumed : Bool) : Act n := fun m =>
  if resumed then
    stage2 env true (m.opt.curRef.getD []) none { m with uc := m.opt.unchanged }
  else
    stage1 env (fun ref objs => (fun m => ({ m with uc := 0 }, .cont)) ;;
      stage2 env false ref (some objs)) m

/-- Observer at the very start: src/oqnlp.rs 679-687. -/
def obsStart (env : Env n) : Act n := modify fun o => o.mapObs fun b =>
  (b.startTimer (env.time 0)).upd1 (·.start (env.time 0))

end Act

/-- Result of `OQNLP::run` together with the final state: src/oqnlp.rs 678, 1020-1031. -/
structure RunResult (n : Nat) where
  final : M n
  result : Except Err (List (Sol n))

/-- `OQNLP::run`: src/oqnlp.rs 678-1030. -/
def run {n : Nat} (env : Env n) (o : Opt n) (loaded : Option (Except CkErr (Ckpt n))) :
    RunResult n :=
  let m0 := (Act.obsStart env ⟨o, 0, 0, []⟩).1
  match m0.opt.tryResume loaded with
  | .error e => ⟨m0, .error e⟩
  | .ok (o1, resumed) =>
    match Act.body env resumed { m0 with opt := o1 } with
    | (m, .fail e) => ⟨m, .error e⟩
    | (m, _) =>
      match m.opt.solset with
      | some set => ⟨m, .ok set⟩
      | none => ⟨m, .error (.noFeasibleSolution 0)⟩

end GS
