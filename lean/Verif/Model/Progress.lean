/- The progress bars of a build with feature `progress_bar`: the machine of `Model/Oqnlp.lean` with the calls of kdam at
the places they have in the source. -/
import Verif.Model.Oqnlp

namespace GS
variable {n : Nat}

/-- A `kdam::Bar`: total, number of steps, text in front. Built at src/scatter_search.rs 243-250, src/oqnlp.rs 885-897.
Postfix, unit and drawing are left out. -/
structure Bar where
  total : Nat
  count : Nat
  desc : String
deriving DecidableEq, Repr

/-- Can the `i`-th step of a bar be written to the terminal (`Bar::update(1).is_ok()`)? Dependency `kdam`:
src/scatter_search.rs 279, 289, 311, 385, 425, src/oqnlp.rs 903. -/
abbrev Screen := Nat → Bool

namespace Bar

/-- `pb.update(1).expect(…)`; `none` is the panic: src/oqnlp.rs 903. -/
def step (scr : Screen) (b : Bar) : Option Bar :=
  if scr b.count then some { b with count := b.count + 1 } else none

/-- `pb.set_description(…); pb.update(1).expect(…)`: src/scatter_search.rs 278-279, 288-289, 310-311, 384-385,
424-425. -/
def tick (scr : Screen) (d : String) (b : Bar) : Option Bar := step scr { b with desc := d }

/-- `k` steps: src/oqnlp.rs 902-904. -/
def steps (scr : Screen) : Nat → Bar → Option Bar
  | 0, b => some b
  | k + 1, b => (step scr b).bind (steps scr k)

/-- The bar of stage 1: src/scatter_search.rs 243-250. -/
def one : Bar := ⟨3, 0, "Stage 1"⟩

end Bar

namespace Scatter

/-- `initialize_reference_set` with a bar: src/scatter_search.rs 320-428. -/
def initBar (rt : Rt n) (sched : Sched) (scr : Screen) (s : Scatter n) (b : Bar) :
    Bar × Except ScatterErr (Scatter n) :=
  match b.tick scr "Stage 1, initialized reference set" with
  | none => (b, .error .panic)
  | some b1 =>
    match s.diversify rt sched (seedPoints s.problem ++ s.customPoints) with
    | .error e => (b1, .error e)
    | .ok (s1, ref) =>
      match evalInit s.parallel sched.evals s.problem ref with
      | .error e => (b1, .error e)
      | .ok objs =>
        match b1.tick scr "Stage 1, diversified reference set" with
        | none => (b1, .error .panic)
        | some b2 =>
          (b2, .ok { s1 with
            refSet := (rt.sort (ref.zip objs)).map Prod.fst
            refObjs := (rt.sort (ref.zip objs)).map Prod.snd })

/-- `ScatterSearch::run` with its bar: src/scatter_search.rs 240-318. -/
def runBar (rt : Rt n) (sched : Sched) (scr : Screen) (s : Scatter n) : Bar × Except ScatterErr (Result n) :=
  match s.initBar rt sched scr Bar.one with
  | (b, .error e) => (b, .error e)
  | (b, .ok s1) =>
    match b.tick scr "Stage 1, initialized and diversified" with
    | none => (b, .error .panic)
    | some b1 =>
      match s1.trialPoints rt with
      | none => (b1, .error .panic)
      | some (s2, trials) =>
        match b1.tick scr "Stage 1, generated trial points" with
        | none => (b1, .error .panic)
        | some b2 =>
          match s2.update rt sched trials with
          | none => (b2, .error .panic)
          | some s3 =>
            match s3.best sched with
            | .error e => (b2, .error e)
            | .ok p =>
              match b2.tick scr "Stage 1, found best solution" with
              | none => (b2, .error .panic)
              | some b3 =>
                (b3, .ok ⟨s3.refSet.zip s3.refObjs, p, s1.refSet.length, trials.length, s3.refSet.length,
                  s1.refSet.length +
                    (trials.filter (trialEvaluated s2 (distThreshold s2.parallel sched.sum s2.refSet))).length⟩)

end Scatter

/-- The bars of the two stages, once built: src/scatter_search.rs 243, src/oqnlp.rs 885. -/
structure Bars where
  one : Option Bar
  two : Option Bar
deriving DecidableEq, Repr

/-- A piece of `run` with its bars: src/oqnlp.rs 678-1031. -/
abbrev BAct (n : Nat) := M n × Bars → (M n × Bars) × Out

namespace BAct

/-- Code that does not mention a bar: control flow of src/oqnlp.rs 678-1031. -/
def quiet (a : Act n) : BAct n := fun t => (((a t.1).1, t.2), (a t.1).2)

/-- Sequencing: control flow of src/oqnlp.rs 678-1031. -/
def seq (a b : BAct n) : BAct n := fun t => if (a t).2 = .cont then b (a t).1 else a t

/-- The scatter search started by stage 1: src/oqnlp.rs 722-743. There is no bar if it cannot be built. -/
def scatter (env : Env n) (scr : Screen) (o : Opt n) : Option Bar × Except Err (Scatter.Result n) :=
  match Scatter.new o.problem o.params with
  | .error e => (none, .error (.scatterNew e))
  | .ok s =>
    match (match o.custom with
      | some l => (s.setParallel o.par).withCustom l
      | none => s.setParallel o.par).runBar env.rt env.sched scr with
    | (b, .error e) => (some b, .error (.scatterRun e))
    | (b, .ok r) => (some b, .ok r)

/-- The bar of stage 2, advanced to the iteration of the checkpoint in a resumed run: src/oqnlp.rs 884-905. Nothing
after that mentions it. -/
def openBar (scr : Screen) (resumed : Bool) : BAct n := fun t =>
  match Bar.steps scr (if resumed then t.1.opt.curIter else 0) ⟨t.1.opt.params.iterations, 0, "Stage 2"⟩ with
  | none => (t, .fail .panic)
  | some b => ((t.1, { t.2 with two := some b }), .cont)

/-- Stage 2: src/oqnlp.rs 866-1027. -/
def stage2 (env : Env n) (scr : Screen) (resumed : Bool) (ref : List (Pt n)) (objs : Option (List F64)) : BAct n :=
  seq (quiet (Act.obsStart2 env)) (seq (openBar scr resumed) (quiet fun m =>
    if resumed then Act.stage2Main env true m.opt.curIter ref objs m
    else
      match Opt.shuffleSeed env m.opt.params.seed m.opt.curIter with
      | none => (m, .fail .panic)
      | some sd => (Act.setSeed sd ;; Act.stage2Main env false 0 (env.rt.shuffle sd ref) objs) m))

/-- Stage 1 followed by stage 2: src/oqnlp.rs 716-1027. -/
def stage1 (env : Env n) (scr1 scr2 : Screen) : BAct n := fun t =>
  match scatter env scr1 t.1.opt with
  | (b, .error e) => ((t.1, { t.2 with one := b }), .fail e)
  | (b, .ok r) =>
    seq (quiet (Act.log (.scatter r.evals) ;;
        (if t.1.opt.tracks1 then Act.obsScatter env r else Act.skip) ;;
        Act.obsScatterDone env (r.ref.map Prod.fst) (r.ref.map Prod.snd) ;;
        Act.stage1Local env r.best (r.ref.map Prod.fst) ;; (fun m => ({ m with uc := 0 }, .cont))))
      (stage2 env scr2 false (r.ref.map Prod.fst) (some (r.ref.map Prod.snd))) (t.1, { t.2 with one := b })

/-- Body of `run` after a possible resume: src/oqnlp.rs 701-1027. -/
def body (env : Env n) (scr1 scr2 : Screen) (resumed : Bool) : BAct n := fun t =>
  if resumed then
    stage2 env scr2 true (t.1.opt.curRef.getD []) none ({ t.1 with uc := t.1.opt.unchanged }, t.2)
  else stage1 env scr1 scr2 t

end BAct

/-- `OQNLP::run` with its bars; `scr1` and `scr2` are the terminal as the bars of the two stages find it: src/oqnlp.rs
678-1030. -/
def runBars (env : Env n) (scr1 scr2 : Screen) (o : Opt n) (loaded : Option (Except CkErr (Ckpt n))) :
    RunResult n × Bars :=
  let m0 := (Act.obsStart env ⟨o, 0, 0, []⟩).1
  match m0.opt.tryResume loaded with
  | .error e => (⟨m0, .error e⟩, ⟨none, none⟩)
  | .ok (o1, resumed) =>
    match BAct.body env scr1 scr2 resumed ({ m0 with opt := o1 }, ⟨none, none⟩) with
    | ((m, b), .fail e) => (⟨m, .error e⟩, b)
    | ((m, b), _) =>
      match m.opt.solset with
      | some set => (⟨m, .ok set⟩, b)
      | none => (⟨m, .error (.noFeasibleSolution 0)⟩, b)

end GS
