/- Model of src/observers/{mod,stage1,stage2}.rs.  Instants and durations are natural numbers
(`Instant::now()` is the argument `now`; `elapsed` is subtraction). -/
import Verif.Model.Types

namespace GS

/-- Substage names used by the library (src/observers/stage1.rs `enter_substage`). -/
inductive Substage where
  | notStarted | initializationComplete | diversificationComplete | intensificationComplete
  | scatterSearchRunning | scatterSearchComplete | localOptimization | localOptimizationComplete
  | stage1Complete
deriving DecidableEq, Repr

/-- `Stage1State`: src/observers/stage1.rs 63-98. -/
structure Stage1 (n : Nat) where
  refSetSize : Nat
  bestObjective : F64
  bestPoint : Option (Pt n)
  substage : Substage
  substageTime : Option Nat
  substageStart : Option Nat
  functionEvaluations : Nat
  trialPoints : Nat
  totalTimeField : Option Nat
  stageStart : Option Nat
deriving DecidableEq

namespace Stage1
variable {n : Nat}

/-- `Stage1State::new`: src/observers/stage1.rs 106-119. -/
def new : Stage1 n := ⟨0, F64.nan, none, .notStarted, none, none, 0, 0, none, none⟩
/-- `start`: src/observers/stage1.rs 122-124. -/
def start (s : Stage1 n) (now : Nat) : Stage1 n := { s with stageStart := some now }
/-- `end`: src/observers/stage1.rs 127-131. -/
def finish (s : Stage1 n) (now : Nat) : Stage1 n :=
  match s.stageStart with
  | some t => { s with totalTimeField := some (now - t) }
  | none => s
/-- `set_reference_set_size`: src/observers/stage1.rs 134-136. -/
def setRefSetSize (s : Stage1 n) (k : Nat) : Stage1 n := { s with refSetSize := k }
/-- `set_best_objective`: src/observers/stage1.rs 139-143. -/
def setBestObjective (s : Stage1 n) (o : F64) : Stage1 n :=
  if s.bestObjective.isNaN || F64.lt o s.bestObjective then { s with bestObjective := o } else s
/-- `set_best_solution`: src/observers/stage1.rs 146-151. -/
def setBest (s : Stage1 n) (o : F64) (p : Pt n) : Stage1 n :=
  if s.bestObjective.isNaN || F64.lt o s.bestObjective then
    { s with bestObjective := o, bestPoint := some p }
  else s
/-- `enter_substage`: src/observers/stage1.rs 166-174. -/
def enterSubstage (s : Stage1 n) (name : Substage) (now : Nat) : Stage1 n :=
  let s := match s.substageStart with
    | some t => { s with substageTime := some (now - t) }
    | none => s
  { s with substage := name, substageStart := some now }
/-- `add_function_evaluations`: src/observers/stage1.rs 185-187 (no overflow of `usize`). -/
def addEvals (s : Stage1 n) (k : Nat) : Stage1 n :=
  { s with functionEvaluations := s.functionEvaluations + k }
/-- `add_trial_points`: src/observers/stage1.rs 197-199 (no overflow of `usize`). -/
def addTrialPoints (s : Stage1 n) (k : Nat) : Stage1 n := { s with trialPoints := s.trialPoints + k }
/-- `total_time`: src/observers/stage1.rs 264-270. -/
def totalTime (s : Stage1 n) (now : Nat) : Option Nat :=
  match s.stageStart with
  | some t => some (now - t)
  | none => s.totalTimeField
end Stage1

/-- `Stage2State`: src/observers/stage2.rs 54-95. -/
structure Stage2 (n : Nat) where
  bestObjective : F64
  bestPoint : Option (Pt n)
  lastAdded : Option (Pt n)
  solutionSetSize : Nat
  iteration : Nat
  threshold : F64
  localCalls : Nat
  improvedCalls : Nat
  functionEvaluations : Nat
  unchangedCycles : Nat
  totalTimeField : Option Nat
  stageStart : Option Nat
deriving DecidableEq

namespace Stage2
variable {n : Nat}

/-- `Stage2State::new`: src/observers/stage2.rs 105-120. -/
def new : Stage2 n := ⟨F64.nan, none, none, 0, 0, F64.inf, 0, 0, 0, 0, none, none⟩
/-- `start`: src/observers/stage2.rs 123-125. -/
def start (s : Stage2 n) (now : Nat) : Stage2 n := { s with stageStart := some now }
/-- `end`: src/observers/stage2.rs 128-132. -/
def finish (s : Stage2 n) (now : Nat) : Stage2 n :=
  match s.stageStart with
  | some t => { s with totalTimeField := some (now - t) }
  | none => s
/-- `set_iteration`: src/observers/stage2.rs 135-137. -/
def setIteration (s : Stage2 n) (k : Nat) : Stage2 n := { s with iteration := k }
/-- `set_best_objective`: src/observers/stage2.rs 140-144. -/
def setBestObjective (s : Stage2 n) (o : F64) : Stage2 n :=
  if s.bestObjective.isNaN || F64.lt o s.bestObjective then { s with bestObjective := o } else s
/-- `set_best_solution`: src/observers/stage2.rs 147-152. -/
def setBest (s : Stage2 n) (o : F64) (p : Pt n) : Stage2 n :=
  if s.bestObjective.isNaN || F64.lt o s.bestObjective then
    { s with bestObjective := o, bestPoint := some p }
  else s
/-- `set_solution_set_size`: src/observers/stage2.rs 155-157. -/
def setSize (s : Stage2 n) (k : Nat) : Stage2 n := { s with solutionSetSize := k }
/-- `set_threshold_value`: src/observers/stage2.rs 160-162. -/
def setThreshold (s : Stage2 n) (t : F64) : Stage2 n := { s with threshold := t }
/-- `add_local_solver_call`: src/observers/stage2.rs 165-170. -/
def addLocalCall (s : Stage2 n) (improved : Bool) : Stage2 n :=
  let s := { s with localCalls := s.localCalls + 1 }
  if improved then { s with improvedCalls := s.improvedCalls + 1 } else s
/-- `add_function_evaluations`: src/observers/stage2.rs 173-175 (no overflow of `usize`). -/
def addEvals (s : Stage2 n) (k : Nat) : Stage2 n :=
  { s with functionEvaluations := s.functionEvaluations + k }
/-- `set_unchanged_cycles`: src/observers/stage2.rs 178-180. -/
def setUnchanged (s : Stage2 n) (k : Nat) : Stage2 n := { s with unchangedCycles := k }
/-- `set_last_added_solution`: src/observers/stage2.rs 186-188. -/
def setLastAdded (s : Stage2 n) (p : Pt n) : Stage2 n := { s with lastAdded := some p }
/-- `total_time`: src/observers/stage2.rs 350-356. -/
def totalTime (s : Stage2 n) (now : Nat) : Option Nat :=
  match s.stageStart with
  | some t => some (now - t)
  | none => s.totalTimeField
end Stage2

/-- `PreviousStage2State`: src/observers/mod.rs 92-101. -/
structure PrevStage2 where
  bestObjective : F64
  solutionSetSize : Nat
  threshold : F64
  localCalls : Nat
  improvedCalls : Nat
  functionEvaluations : Nat
  unchangedCycles : Nat
deriving DecidableEq

namespace PrevStage2
variable {n : Nat}
/-- `from_stage2`: src/observers/mod.rs 103-113. -/
def ofStage2 (s : Stage2 n) : PrevStage2 :=
  ⟨s.bestObjective, s.solutionSetSize, s.threshold, s.localCalls, s.improvedCalls,
    s.functionEvaluations, s.unchangedCycles⟩
/-- `has_changed`: src/observers/mod.rs 115-122 (`!=` on floats; `unchanged_cycles` is not compared). -/
def hasChanged (p : PrevStage2) (s : Stage2 n) : Bool :=
  !(F64.feq p.bestObjective s.bestObjective)
    || p.solutionSetSize != s.solutionSetSize
    || !(F64.feq p.threshold s.threshold)
    || p.localCalls != s.localCalls
    || p.improvedCalls != s.improvedCalls
    || p.functionEvaluations != s.functionEvaluations
end PrevStage2

/-- `ObserverMode`: src/observers/mod.rs 75-82. -/
inductive Mode where
  | stage1Only | stage2Only | both
deriving DecidableEq, Repr

/-- `Observer`: src/observers/mod.rs 226-259.  A callback is an identifier whose meaning (a function on
observers) is supplied by the environment, since a structure cannot contain functions on itself. -/
structure Obs (n : Nat) where
  mode : Mode
  stage1 : Option (Stage1 n)
  stage2 : Option (Stage2 n)
  trackTiming : Bool
  startTime : Option Nat
  callback : Option Nat
  frequency : Nat
  stage1Completed : Bool
  stage2Started : Bool
  prev : Option PrevStage2
  filterChanges : Bool
deriving DecidableEq

/-- Identifier of the built-in default callback: src/observers/mod.rs 658-783. -/
def defaultCb : Nat := 0
/-- Identifier of the built-in stage-1 callback: src/observers/mod.rs 785-860. -/
def stage1Cb : Nat := 1
/-- Identifier of the built-in stage-2 callback: src/observers/mod.rs 862-915. -/
def stage2Cb : Nat := 2

namespace Obs
variable {n : Nat}

/-- `Observer::new`: src/observers/mod.rs 314-328. -/
def new : Obs n := ⟨.both, none, none, false, none, none, 1, false, false, none, false⟩
/-- `with_stage1_tracking`: src/observers/mod.rs 349-352. -/
def withStage1 (o : Obs n) : Obs n := { o with stage1 := some Stage1.new }
/-- `with_stage2_tracking`: src/observers/mod.rs 375-378. -/
def withStage2 (o : Obs n) : Obs n := { o with stage2 := some Stage2.new }
/-- `with_timing`: src/observers/mod.rs 411-414. -/
def withTiming (o : Obs n) : Obs n := { o with trackTiming := true }
/-- `with_mode`: src/observers/mod.rs 448-451. -/
def withMode (o : Obs n) (m : Mode) : Obs n := { o with mode := m }
/-- `with_callback`: src/observers/mod.rs 514-520. -/
def withCallback (o : Obs n) (c : Nat) : Obs n := { o with callback := some c }
/-- `with_default_callback`: src/observers/mod.rs 658-769. -/
def withDefaultCallback (o : Obs n) : Obs n := o.withCallback defaultCb
/-- `with_stage1_callback`: src/observers/mod.rs 785-840. -/
def withStage1Callback (o : Obs n) : Obs n := o.withCallback stage1Cb
/-- `with_stage2_callback`: src/observers/mod.rs 862-896. -/
def withStage2Callback (o : Obs n) : Obs n := o.withCallback stage2Cb
/-- `with_callback_frequency`: src/observers/mod.rs 561-568. -/
def withFrequency (o : Obs n) (f : Nat) : Obs n :=
  let o := { o with frequency := f }
  if o.callback.isNone then o.withDefaultCallback else o
/-- `unique_updates`: src/observers/mod.rs 594-597. -/
def uniqueUpdates (o : Obs n) : Obs n := { o with filterChanges := true }
/-- `start_timer`: src/observers/mod.rs 903-907. -/
def startTimer (o : Obs n) (now : Nat) : Obs n :=
  if o.trackTiming then { o with startTime := some now } else o
/-- `elapsed_time`: src/observers/mod.rs 913-915. -/
def elapsedTime (o : Obs n) (now : Nat) : Option Nat := o.startTime.map (now - ·)
/-- `should_observe_stage1`: src/observers/mod.rs 921-924. -/
def should1 (o : Obs n) : Bool := (o.mode == .stage1Only || o.mode == .both) && o.stage1.isSome
/-- `should_observe_stage2`: src/observers/mod.rs 929-932. -/
def should2 (o : Obs n) : Bool := (o.mode == .stage2Only || o.mode == .both) && o.stage2.isSome
/-- `stage1()`: src/observers/mod.rs 959-962. -/
def getStage1 (o : Obs n) : Option (Stage1 n) := if o.stage1Completed then none else o.stage1
/-- `stage1_final()`: src/observers/mod.rs 998-1000. -/
def getStage1Final (o : Obs n) : Option (Stage1 n) := o.stage1
/-- `stage2()`: src/observers/mod.rs 1044-1047. -/
def getStage2 (o : Obs n) : Option (Stage2 n) := if o.stage2Started then o.stage2 else none
/-- `mark_stage1_complete`: src/observers/mod.rs 1015-1017. -/
def markStage1Complete (o : Obs n) : Obs n := { o with stage1Completed := true }
/-- `mark_stage2_started`: src/observers/mod.rs 1062-1064. -/
def markStage2Started (o : Obs n) : Obs n := { o with stage2Started := true }
/-- `if let Some(s) = observer.stage1_mut() { f(s) }`: e.g. src/oqnlp.rs 682-684, 1126, 1659-1661;
src/observers/mod.rs 921-935, 1006-1060. -/
def mod1 (o : Obs n) (f : Stage1 n → Stage1 n) : Obs n := { o with stage1 := o.stage1.map f }
/-- `if let Some(s) = observer.stage2_mut() { f(s) }`: e.g. src/oqnlp.rs 682-684, 1126, 1659-1661;
src/observers/mod.rs 921-935, 1006-1060. -/
def mod2 (o : Obs n) (f : Stage2 n → Stage2 n) : Obs n := { o with stage2 := o.stage2.map f }
/-- `if observer.should_observe_stage1() { if let Some(s) = observer.stage1_mut() { f(s) } }`: e.g.
src/oqnlp.rs 682-684, 1126, 1659-1661; src/observers/mod.rs 921-935, 1006-1060. -/
def upd1 (o : Obs n) (f : Stage1 n → Stage1 n) : Obs n := if o.should1 then o.mod1 f else o
/-- `if observer.should_observe_stage2() { if let Some(s) = observer.stage2_mut() { f(s) } }`: e.g.
src/oqnlp.rs 682-684, 1126, 1659-1661; src/observers/mod.rs 921-935, 1006-1060. -/
def upd2 (o : Obs n) (f : Stage2 n → Stage2 n) : Obs n := if o.should2 then o.mod2 f else o
/-- `invoke_callback`: src/observers/mod.rs 1078-1083.  `cb id stamp` is what the user's callback does to the
observer at the invocation `stamp` (callbacks may have interior state, so different invocations may
behave differently). -/
def invoke (cb : Nat → Nat → Obs n → Obs n) (stamp : Nat) (o : Obs n) : Obs n :=
  match o.callback with
  | some c => cb c stamp o
  | none => o
/-- `should_invoke_callback`: src/observers/mod.rs 1098-1100; `none` is the remainder-by-zero panic. -/
def shouldInvoke (o : Obs n) (iter : Nat) : Option Bool :=
  if o.callback.isSome then
    if o.frequency = 0 then none else some (iter % o.frequency == 0)
  else some false

/-- A line printed by a built-in callback (arguments are the numbers shown; text formatting is not
modelled): the `eprintln!` lines of src/observers/mod.rs 658-900. -/
inductive Line (n : Nat) where
  /-- "Starting Scatter Search...": src/observers/mod.rs 669-670, 795-796 -/
  | starting
  /-- "Initialization Complete | Initial Points": src/observers/mod.rs 671-675, 797-801 -/
  | initialized (points : Nat)
  /-- "Diversification Complete | Ref. Set Size": src/observers/mod.rs 676-680, 802-806 -/
  | diversified (refSize : Nat)
  /-- "Intensification Complete | Trial Points Generated | Accepted": src/observers/mod.rs 681-686, 807-812 -/
  | intensified (trials accepted : Nat)
  /-- "Scatter Search Complete | Best [at]": src/observers/mod.rs 687-699, 813-825 -/
  | scattered (best : F64) (at_ : Option (Pt n))
  /-- "Local Optimization Complete | Best [at] | Total Fn Evals": src/observers/mod.rs 700-714, 826-840 -/
  | optimized (best : F64) (at_ : Option (Pt n)) (evals : Nat)
  /-- "[Stage 2] Iter | Best [at] | Solutions | Threshold | Local Calls | Fn Evals": src/observers/mod.rs
  752-764, 869-896 -/
  | stage2 (iter : Nat) (best : F64) (at_ : Option (Pt n)) (size : Nat) (threshold : F64)
      (calls evals : Nat)
deriving DecidableEq

/-- Stage-1 message of the built-in callbacks for a substage, `none` if there is no message:
src/observers/mod.rs 667-717, 793-842. -/
def stage1Line (s : Stage1 n) : Option (Line n) :=
  match s.substage with
  | .scatterSearchRunning => some .starting
  | .initializationComplete => some (.initialized s.functionEvaluations)
  | .diversificationComplete => some (.diversified s.refSetSize)
  | .intensificationComplete => some (.intensified s.trialPoints s.refSetSize)
  | .scatterSearchComplete => some (.scattered s.bestObjective s.bestPoint)
  | .localOptimizationComplete => some (.optimized s.bestObjective s.bestPoint s.functionEvaluations)
  | .notStarted | .localOptimization | .stage1Complete => none

/-- Stage-2 message: src/observers/mod.rs 753-764. -/
def stage2Line (s : Stage2 n) : Line n :=
  .stage2 s.iteration s.bestObjective s.lastAdded s.solutionSetSize s.threshold s.localCalls
    s.functionEvaluations

/-- Stage-2 part of the default callback: src/observers/mod.rs 724-767. -/
def defaultStage2 (o : Obs n) : Obs n × List (Line n) :=
  match o.getStage2 with
  | none => (o, [])
  | some s =>
    if 0 < s.iteration then
      if o.filterChanges then
        let changed := match o.prev with
          | none => true
          | some p => p.hasChanged s
        ({ o with prev := some (PrevStage2.ofStage2 s) }, if changed then [stage2Line s] else [])
      else (o, [stage2Line s])
    else (o, [])

/-- The default callback: src/observers/mod.rs 665-769.  A stage-1 substage without message returns early. -/
def defaultCallback (o : Obs n) : Obs n × List (Line n) :=
  match o.getStage1 with
  | some s =>
    match stage1Line s with
    | none => (o, [])
    | some l =>
      let r := defaultStage2 o
      (r.1, l :: r.2)
  | none => defaultStage2 o

/-- `with_stage1_callback`: src/observers/mod.rs 785-840. -/
def stage1Callback (o : Obs n) : Obs n × List (Line n) :=
  match o.getStage1 with
  | some s => (o, (stage1Line s).toList)
  | none => (o, [])

/-- `with_stage2_callback`: src/observers/mod.rs 862-900. -/
def stage2Callback (o : Obs n) : Obs n × List (Line n) :=
  match o.getStage2 with
  | some s => (o, if 0 < s.iteration then [stage2Line s] else [])
  | none => (o, [])
end Obs
end GS
