/- Properties C33, C34 and C36-C38: batches, thread schedules, thread counts, observers and seeds. -/
import Verif.Lemmas.Flat
import Verif.Props.Outcome

namespace GS.Props
open GS F64 Witness
variable {n : Nat}

theorem loaded_id (loaded : Option (Except CkErr (Ckpt n))) {E : Er} (h : E.batch = id) :
    loaded.map (Except.map E.ckpt) = loaded := by
  have : E.ckpt (n := n) = id := by
    funext c; unfold Er.ckpt; rw [h]; rfl
  rw [this]
  cases loaded with
  | none => rfl
  | some x => cases x <;> rfl

/-! ### C33: sequential mode ignores the batch size -/

/-- A checkpoint event without the recorded batch size. -/
def noBatch : Event n → Event n
  | .saved it c => .saved it { c with batchIterations := none }
  | .saveFailed it c => .saveFailed it { c with batchIterations := none }
  | e => e

/-- With `parallel(false)` the batch size changes neither the result nor any event of the run: not the
points examined, the searches started, the solutions recorded, nor the checkpoints apart from the recorded
batch size itself. -/
theorem C33_batch_size_ignored {env : Env n} {o : Opt n} (b : Nat)
    {loaded : Option (Except CkErr (Ckpt n))} (hp : o.par = false) :
    (run env (o.setBatch b) loaded).result = (run env o loaded).result ∧
    (run env (o.setBatch b) loaded).final.trace.map noBatch =
      (run env o loaded).final.trace.map noBatch := by
  by_cases hr : ∃ c, Resumes o loaded c
  · obtain ⟨c, hc⟩ := hr
    have hc' : Resumes (o.setBatch b) loaded c := hc
    rw [run_resumes env o loaded hc, run_resumes env (o.setBatch b) loaded hc']
    exact ⟨rfl, rfl⟩
  · let E : Er := { noObs := false, batch := fun _ => some b }
    have hload : ∀ (x : Opt n), x.ckpt = o.ckpt →
        x.tryResume loaded = x.tryResume (loaded.map (Except.map E.ckpt)) := by
      intro x hx
      unfold Opt.tryResume
      rw [hx]
      cases hck : o.ckpt with
      | none => rfl
      | some cfg =>
        dsimp only
        cases hau : cfg.autoResume with
        | false => rfl
        | true =>
          cases loaded with
          | none => rfl
          | some l =>
            cases l with
            | error e => rfl
            | ok c => exact absurd ⟨c, rfl, cfg, hck, hau⟩ hr
    have hrun : run env (o.setBatch b) loaded =
        run env (E.opt o) (loaded.map (Except.map E.ckpt)) := by
      have he : E.opt o = o.setBatch b := rfl
      rw [he]
      unfold run
      dsimp only
      rw [hload (Act.obsStart env ⟨o.setBatch b, 0, 0, []⟩).1.opt rfl]
    have hs := run_sim (E := E) (env := env) (env' := env) (o := o) (loaded := loaded) ?_
      (fun _ => rfl) (fun h => by cases h)
    · rw [hrun, hs]
      refine ⟨?_, ?_⟩
      · show E.res _ = _
        cases (run env o loaded).result with
        | ok s => rfl
        | error e => cases e <;> rfl
      · show (List.filterMap E.event _).map noBatch = _
        rw [List.map_filterMap]
        have : (fun x => Option.map noBatch (E.event (n := n) x)) = fun x => some (noBatch x) := by
          funext x
          cases x <;> try rfl
          rename_i it p r
          cases r <;> rfl
        rw [this]
        exact List.filterMap_eq_map (f := noBatch) ▸ rfl
    · intro o1 r ho1
      have hp1 : o1.par = false := by
        unfold startOpt Opt.tryResume at ho1
        split at ho1
        · cases ho1; exact hp
        · rename_i cfg hcfg
          split at ho1
          · rename_i hau
            split at ho1
            · cases ho1; exact hp
            · cases ho1
            · rename_i c
              exact absurd ⟨c, rfl, cfg, hcfg, hau⟩ hr
          · cases ho1; exact hp
      refine ⟨rfl, rfl, ?_, fun _ => rfl, rfl, rfl, fun _ => ⟨rfl, rfl⟩, ⟨fun _ _ => rfl, rfl⟩, ?_,
        (fun h => by cases h), Or.inl fun _ => ⟨rfl, rfl⟩⟩
      · intro ty cfg p
        show _ = Er.lres _ _
        cases env.solve ty cfg p <;> rfl
      · intro st
        unfold Opt.effBatch
        rw [show (E.opt o1).par = o1.par from rfl, hp1]; rfl

/-- Without time limit, cutting the iterations into sequential batches in whatever way gives the same
state, trace and outcome: the loop only sees the concatenation of its batches. -/
theorem C33_chunking {env : Env n} {r : Bool} {st : Nat} {objs : Option (List F64)} {k k' : Nat}
    {bs bs' : List (List (Nat × Pt n))} {m : M n} (ht : m.opt.targetReached = false)
    (hmax : m.opt.maxTime = none) (h : bs.flatten = bs'.flatten) :
    Act.loop env r st objs 1 k bs m = Act.loop env r st objs 1 k' bs' m := by
  rw [loop_flat env r st objs 1 k (by omega) bs m ht hmax,
    loop_flat env r st objs 1 k' (by omega) bs' m ht hmax, h]

/-- In particular batches of any positive size do the same as single iterations. -/
theorem C33_chunk_size {env : Env n} {r : Bool} {st : Nat} {objs : Option (List F64)} {size : Nat}
    {its : List (Nat × Pt n)} {m : M n} (hsize : 0 < size) (ht : m.opt.targetReached = false)
    (hmax : m.opt.maxTime = none) :
    Act.loop env r st objs 1 0 (chunks size its) m = Act.loop env r st objs 1 0 (chunks 1 its) m :=
  C33_chunking ht hmax (by rw [chunks_flatten _ hsize, chunks_flatten _ Nat.one_pos])

/-- A sequential run with a batch size that succeeds. -/
example : demoSeq.par = false ∧ demoSeq.maxTime = none ∧
    succeeds (run (env stay) (demoSeq.setBatch 3) none) = true :=
  ⟨by decide +kernel, by decide +kernel, by decide +kernel⟩

/-! ### C34: schedule independence of parallel stage 2 -/

/-- The two environments differ at most in the completion orders of parallel tasks. -/
def SameButOrders (env env' : Env n) : Prop :=
  env' = { env with evalOrder := env'.evalOrder, solveOrder := env'.solveOrder }

/-- Every task of every batch completes, in both environments. -/
def BothComplete (env env' : Env n) (o : Opt n) (loaded : Option (Except CkErr (Ckpt n))) : Prop :=
  ∀ o1 r, startOpt env o loaded = .ok (o1, r) →
    Completes env o1.params.iterations ∧ Completes env' o1.params.iterations

/-- If local searches fail in at most one way, the run does not depend on the completion orders at all. -/
theorem C34_schedule_irrelevant {env env' : Env n} {o : Opt n}
    {loaded : Option (Except CkErr (Ckpt n))} (hs : SameButOrders env env')
    (hc : BothComplete env env' o loaded)
    (hu : ∀ ty cfg p q x y, env.solve ty cfg p = .error x → env.solve ty cfg q = .error y → x = y) :
    run env' o loaded = run env o loaded := by
  let E : Er := { noObs := false, batch := id }
  have h := run_sim (E := E) (env := env) (env' := env') (o := o) (loaded := loaded) ?_
    (fun _ => by rw [hs]) (fun h => by cases h)
  · rw [loaded_id loaded rfl] at h
    have he : E.opt o = o := rfl
    rw [he, Er.st_id rfl rfl rfl rfl] at h
    rw [h]
    generalize run env o loaded = x
    obtain ⟨f, res⟩ := x
    cases res with
    | ok s => rfl
    | error e => cases e <;> rfl
  · intro o1 r h1
    obtain ⟨hc1, hc2⟩ := hc o1 r h1
    unfold SameButOrders at hs
    refine ⟨by rw [hs], by rw [hs], ?_, fun _ => by rw [hs]; rfl, by rw [hs], by rw [hs],
      fun _ => ⟨by rw [hs], by rw [hs]⟩,
      ⟨fun _ _ => by rw [hs]; rfl, by rw [hs]; rfl⟩, fun _ => by rw [hs]; rfl,
      (fun h => by cases h), Or.inr ⟨hc1, hc2, fun p q x y => hu _ _ p q x y⟩⟩
    intro ty cfg p
    rw [hs]
    show _ = Er.lres _ _
    cases env.solve ty cfg p <;> rfl

/-- All local solver errors made equal. -/
def canon : Er := { noObs := false, batch := id, lerr := fun _ => .runFailed }

/-- An environment whose local searches fail in one way only. -/
def oneError (env : Env n) : Env n := { env with solve := fun ty cfg p => canon.lres (env.solve ty cfg p) }

theorem run_oneError (env : Env n) (o : Opt n) (loaded : Option (Except CkErr (Ckpt n))) :
    run (oneError env) o loaded =
      ⟨canon.st (run env o loaded).final, canon.res (run env o loaded).result⟩ := by
  have h := run_sim (E := canon) (env := env) (env' := oneError env) (o := o) (loaded := loaded) ?_
    (fun _ => rfl) (fun h => by cases h)
  · rw [loaded_id loaded rfl] at h
    exact h
  · intro o1 r _
    exact ⟨rfl, rfl, fun _ _ _ => rfl, fun _ => rfl, rfl, rfl, fun _ => ⟨rfl, rfl⟩, ⟨fun _ _ => rfl, rfl⟩,
      fun _ => rfl, (fun h => by cases h), Or.inl fun _ => ⟨rfl, rfl⟩⟩

/-- Whatever the local solver does, the final optimizer state (solution set, threshold, filter contents,
counters, observer) is the same for all completion orders, and so is the returned solution set; a run fails
for one order exactly when it fails for all. -/
theorem C34_state_schedule_irrelevant {env env' : Env n} {o : Opt n}
    {loaded : Option (Except CkErr (Ckpt n))} (hs : SameButOrders env env')
    (hc : BothComplete env env' o loaded) :
    (run env' o loaded).final.opt = (run env o loaded).final.opt ∧
    (∀ set, (run env' o loaded).result = .ok set ↔ (run env o loaded).result = .ok set) ∧
    procs (run env' o loaded).final.trace = procs (run env o loaded).final.trace := by
  have h := C34_schedule_irrelevant (env := oneError env) (env' := oneError env') (o := o)
    (loaded := loaded) ?_ ?_ ?_
  · rw [run_oneError, run_oneError] at h
    injection h with h1 h2
    refine ⟨?_, ?_, ?_⟩
    · have h3 : (canon.st (run env' o loaded).final).opt = (canon.st (run env o loaded).final).opt :=
        congrArg _ h1
      exact h3
    · intro set
      have key : ∀ (x : Except Err (List (Sol n))), canon.res x = .ok set ↔ x = .ok set := by
        intro x; cases x <;> simp [Er.res]
      rw [← key, h2, key]
    · have key : ∀ (t : List (Event n)), procs (t.filterMap canon.event) = procs t := by
        intro t
        unfold procs
        rw [List.filterMap_filterMap]
        congr 1
        funext e
        cases e <;> rfl
      have h3 := congrArg (fun m => procs m.trace) h1
      dsimp only [Er.st] at h3
      rw [key, key] at h3
      exact h3
  · unfold SameButOrders oneError at *
    rw [hs]
  · intro o1 r h1
    exact hc o1 r h1
  · intro ty cfg p q x y hx hy
    unfold oneError at hx hy
    dsimp only at hx hy
    unfold Er.lres at hx hy
    split at hx
    · split at hy
      · cases hx; cases hy; rfl
      · cases hy
    · cases hx

/-- Completion in reverse order. -/
def backwards (e : Env n) : Env n :=
  { e with evalOrder := fun k => (e.evalOrder k).reverse
           solveOrder := fun k => (e.solveOrder k).reverse }

/-- Non-vacuity: a parallel run with several searches in one batch, under two orders. -/
example : SameButOrders (env stay) (backwards (env stay)) ∧
    BothComplete (env stay) (backwards (env stay)) demo none ∧
    succeeds (run (env stay) demo none) = true ∧
    searchCount (run (env stay) demo none).final.trace = 3 := by
  refine ⟨rfl, ?_, by decide +kernel, by decide +kernel⟩
  intro o1 r h
  have hi : o1.params.iterations = 4 := by
    have := (startOpt_fresh h).2
    rw [this]
    have hd : demo.params = params 4 6 0 := (mk_fields demo_ok).2.1
    have hp : ∀ (e : Env 1) (o : Opt 1), (Act.obsStart e ⟨o, 0, 0, []⟩).1.opt.params = o.params :=
      fun _ _ => rfl
    rw [hp, hd]; rfl
  rw [hi]
  refine ⟨env_completes _ (by omega), ?_⟩
  intro k
  have h := env_completes (n := 1) stay (N := 4) (by omega) k
  refine ⟨fun i hi => ?_, fun i hi => ?_⟩
  · exact List.mem_reverse.2 (h.1 i hi)
  · exact List.mem_reverse.2 (h.2 i hi)

/-- The stage-1 search succeeds; later ones fail in a way that depends on the start. -/
def picky (_ : SolverType) (_ : SolverConfig) (p : Pt 1) : Except LErr (Sol 1 × Nat) :=
  if p 0 = num 1 then .ok (⟨p, num 1⟩, 1)
  else .error (if p 0 = num 4 then .noSolution else .runFailed)

/-- Runtime shuffling by a rotation. -/
def rot : Rt 1 := { rt 1 with shuffle := fun _ l => l.drop 2 ++ l.take 2 }

theorem rot_valid : rot.Valid := by
  have h := rt_valid (n := 1)
  exact { h with
    shuffle_perm := fun _ l => by
      show (l.drop 2 ++ l.take 2).Perm l
      exact List.perm_append_comm.trans (by rw [List.take_append_drop]) }

/-- Constant objective on `[1, 4]`. -/
def flat : Problem 1 := { lin with objective := fun _ => .ok (num 1) }

theorem flat_ok : (Opt.new flat (params 4 6 0)).toOption.isSome = true := by decide +kernel

theorem mk_new {p : Problem n} {q : Params} (h : (Opt.new p q).toOption.isSome = true) :
    Opt.new p q = .ok (mk p q h) := okOf_eq _ h

/-- Default settings, four iterations, six points. -/
def flatOpt : Opt 1 := mk flat (params 4 6 0) flat_ok

/-- When several local searches of a batch fail in different ways, which error `run` returns depends on the
completion order (both runs fail, as `C34_state_schedule_irrelevant` says they must). -/
theorem C34_error_depends_on_order :
    ∃ (e e' : Env 1) (o : Opt 1), Built o ∧ SameButOrders e e' ∧ e.rt.Valid ∧
      (run e o none).result = .error (.localSolver .runFailed) ∧
      (run e' o none).result = .error (.localSolver .noSolution) :=
  ⟨{ env picky with rt := rot }, backwards { env picky with rt := rot }, flatOpt, mk_built flat_ok, rfl,
    rot_valid, resultErr_iff (by decide +kernel), resultErr_iff (by decide +kernel)⟩

/-! ### C36: number of threads -/

/-- The two environments differ at most in thread count and completion orders. -/
def SameButThreads (env env' : Env n) : Prop :=
  env' = { env with threads := env'.threads
                    evalOrder := env'.evalOrder
                    solveOrder := env'.solveOrder }

/-- With a fixed batch size, in sequential mode, or with fewer than four iterations left, the number of
threads does not matter.  (Partial: with the default batch size it does, see `C36_violated`; the
reductions of stage 1 are fixed by `sched`.) -/
theorem C36_fixed_batch_partial {env env' : Env n} {o : Opt n}
    {loaded : Option (Except CkErr (Ckpt n))} (hs : SameButThreads env env')
    (hc : BothComplete env env' o loaded)
    (hu : ∀ ty cfg p q x y, env.solve ty cfg p = .error x → env.solve ty cfg q = .error y → x = y)
    (hb : ∀ o1 r, startOpt env o loaded = .ok (o1, r) →
      o1.par = false ∨ o1.batch ≠ none ∨ o1.params.iterations < 4) :
    run env' o loaded = run env o loaded := by
  let E : Er := { noObs := false, batch := id }
  have h := run_sim (E := E) (env := env) (env' := env') (o := o) (loaded := loaded) ?_
    (fun _ => by rw [hs]) (fun h => by cases h)
  · rw [loaded_id loaded rfl] at h
    have he : E.opt o = o := rfl
    rw [he, Er.st_id rfl rfl rfl rfl] at h
    rw [h]
    generalize run env o loaded = x
    obtain ⟨f, res⟩ := x
    cases res with
    | ok s => rfl
    | error e => cases e <;> rfl
  · intro o1 r h1
    obtain ⟨hc1, hc2⟩ := hc o1 r h1
    unfold SameButThreads at hs
    refine ⟨by rw [hs], by rw [hs], ?_, fun _ => by rw [hs]; rfl, by rw [hs], by rw [hs],
      fun _ => ⟨by rw [hs], by rw [hs]⟩,
      ⟨fun _ _ => by rw [hs]; rfl, by rw [hs]; rfl⟩, ?_,
      (fun h => by cases h), Or.inr ⟨hc1, hc2, fun p q x y => hu _ _ p q x y⟩⟩
    · intro ty cfg p
      rw [hs]
      show _ = Er.lres _ _
      cases env.solve ty cfg p <;> rfl
    · intro st
      have he : E.opt o1 = o1 := rfl
      rw [he]
      unfold Opt.effBatch
      rcases hb o1 r h1 with h | h | h
      · rw [h]; rfl
      · cases hbt : o1.batch with
        | none => exact absurd hbt h
        | some b => rfl
      · cases o1.batch with
        | some b => rfl
        | none =>
          have h4 : o1.params.iterations - st < 4 := by omega
          simp [h4]

/-- Local search on the constant objective: 2.5 drifts to 3.5 and 4 drifts to 2.5. -/
def drift (_ : SolverType) (_ : SolverConfig) (p : Pt 1) : Except LErr (Sol 1 × Nat) :=
  .ok (⟨if p 0 = F64.lit 5 2 then pt (F64.lit 7 2)
    else if p 0 = num 4 then pt (F64.lit 5 2) else p, num 1⟩, 1)

def driftEnv (t : Nat) : Env 1 := { env drift with rt := rot, threads := t }

/-- Number of solutions returned. -/
def resultSize (r : RunResult n) : Option Nat := match r.result with
  | .ok set => some set.length
  | .error _ => none

/-- With default settings the same seed and problem give two solutions on one thread and three solutions on
four threads: the default batch size depends on the thread count, and inside a parallel batch the filters
do not see the solutions of earlier iterations. -/
theorem C36_violated :
    ∃ (e e' : Env 1) (o : Opt 1), Opt.new flat (params 4 6 0) = .ok o ∧ SameButThreads e e' ∧
      e.rt.Valid ∧ e.threads = 1 ∧ e'.threads = 4 ∧
      resultSize (run e o none) = some 2 ∧ resultSize (run e' o none) = some 3 :=
  ⟨driftEnv 1, driftEnv 4, flatOpt, mk_new flat_ok, rfl, rot_valid, rfl, rfl, by decide +kernel,
    by decide +kernel⟩

/-- A batch size set by the user is still there when a fresh run starts. -/
theorem startOpt_setBatch {env : Env n} {o o1 : Opt n} {k : Nat} {r}
    (h : startOpt env (o.setBatch k) none = .ok (o1, r)) : o1.batch ≠ none := by
  have hb : ∀ (e : Env n) (o : Opt n), (Act.obsStart e ⟨o, 0, 0, []⟩).1.opt.batch = o.batch :=
    fun _ _ => rfl
  rw [(startOpt_fresh h).2, hb]
  exact fun h => by cases h

/-- The hypotheses of `C36_fixed_batch_partial` are met by a run with batch size two. -/
example : SameButThreads (driftEnv 1) (driftEnv 4) ∧
    (∀ o1 r, startOpt (driftEnv 1) (flatOpt.setBatch 2) none = .ok (o1, r) → o1.batch ≠ none) ∧
    resultSize (run (driftEnv 1) (flatOpt.setBatch 2) none) = some 3 :=
  ⟨rfl, fun _ _ => startOpt_setBatch, by decide +kernel⟩

/-! ### C37: observers -/

/-- Not a callback event. -/
def notCallback : Event n → Bool
  | .callback _ _ _ => false
  | _ => true

/-- An observer with positive frequency, whose callback leaves the frequency positive, changes nothing:
the result, every event of the run other than the callbacks themselves (points examined, searches started,
solutions recorded, checkpoints written) and the final optimizer are those of the run without it. -/
theorem C37_noninterference {env : Env n} {o : Opt n} {b : Obs n}
    {loaded : Option (Except CkErr (Ckpt n))} (ho : o.obs = none) (hb : 0 < b.frequency)
    (hcb : ∀ id k b, 0 < b.frequency → 0 < (env.cb id k b).frequency) :
    (run env (o.addObserver b) loaded).result = (run env o loaded).result ∧
    (run env (o.addObserver b) loaded).final.trace.filter notCallback =
      (run env o loaded).final.trace ∧
    { (run env (o.addObserver b) loaded).final.opt with obs := none } =
      (run env o loaded).final.opt := by
  let E : Er := { noObs := true, batch := id }
  have h := run_sim (E := E) (env := env) (env' := env) (o := o.addObserver b) (loaded := loaded) ?_
    (fun h => by cases h) ?_
  · rw [loaded_id loaded rfl] at h
    have he : E.opt (o.addObserver b) = o := by
      obtain ⟨⟩ := o
      dsimp only at ho
      subst ho
      rfl
    rw [he] at h
    rw [h]
    refine ⟨?_, ?_, rfl⟩
    · show _ = E.res _
      cases (run env (o.addObserver b) loaded).result with
      | ok s => rfl
      | error e => cases e <;> rfl
    · show _ = List.filterMap E.event _
      rw [← List.filterMap_eq_filter]
      congr 1
      funext e
      cases e <;> try rfl
      rename_i it p r
      cases r <;> rfl
  · intro o1 r _
    refine ⟨rfl, rfl, ?_, fun _ => rfl, rfl, rfl, (fun h => by cases h), ⟨fun _ _ => rfl, rfl⟩, fun _ => rfl,
      fun _ => hcb, Or.inl fun _ => ⟨rfl, rfl⟩⟩
    intro ty cfg p
    show _ = Er.lres _ _
    cases env.solve ty cfg p <;> rfl
  · intro _ b' hb'
    cases hb'
    exact hb

/-- An observer tracking both stages with a callback every iteration. -/
def watcher : Obs 1 := ((Obs.new.withStage1).withStage2).withCallback 0

/-- Non-vacuity: the callbacks of `watcher` are really invoked. -/
example : 0 < watcher.frequency ∧ demo.obs = none ∧
    0 < ((run (env stay) (demo.addObserver watcher) none).final.trace.filter
      fun e => !notCallback e).length :=
  ⟨by decide, by decide +kernel, by decide +kernel⟩

/-- `with_callback_frequency(0)` with a callback makes every run that reaches stage 2 panic, so the
frequency hypothesis is needed. -/
theorem C37_zero_frequency_panics :
    ∃ (o : Opt 1) (b : Obs 1), Built o ∧ b.frequency = 0 ∧
      (run (env stay) (o.addObserver b) none).result = .error .panic ∧
      succeeds (run (env stay) o none) = true :=
  ⟨demo, { watcher with frequency := 0 }, demo_built, rfl, resultErr_iff (by decide +kernel),
    by decide +kernel⟩

/-! ### C38: seeds -/

/-- If `seed + iterations` fits into 64 bits, the run is the same with and without overflow checks.
(Partial: for larger seeds see `C38_violated`.) -/
theorem C38_seed_partial {env : Env n} {o : Opt n} {loaded : Option (Except CkErr (Ckpt n))}
    (checks : Bool)
    (hseed : ∀ o1 r, startOpt env o loaded = .ok (o1, r) →
      o1.params.seed + Nat.max o1.params.iterations o1.curIter < 2 ^ 64) :
    run { env with overflowChecks := checks } o loaded = run env o loaded := by
  let E : Er := { noObs := false, batch := id }
  have h := run_sim (E := E) (env := env) (env' := { env with overflowChecks := checks }) (o := o)
    (loaded := loaded) ?_ (fun _ => rfl) (fun h => by cases h)
  · rw [loaded_id loaded rfl] at h
    have he : E.opt o = o := rfl
    rw [he, Er.st_id rfl rfl rfl rfl] at h
    rw [h]
    generalize run env o loaded = x
    obtain ⟨f, res⟩ := x
    cases res with
    | ok s => rfl
    | error e => cases e <;> rfl
  · intro o1 r h1
    have hs := hseed o1 r h1
    refine ⟨rfl, rfl, ?_, fun _ => rfl, rfl, rfl, fun _ => ⟨rfl, rfl⟩, ?_, fun _ => rfl,
      (fun h => by cases h), Or.inl fun _ => ⟨rfl, rfl⟩⟩
    · intro ty cfg p
      show _ = Er.lres _ _
      cases env.solve ty cfg p <;> rfl
    · have h1 : o1.params.iterations ≤ Nat.max o1.params.iterations o1.curIter := Nat.le_max_left _ _
      have h2 : o1.curIter ≤ Nat.max o1.params.iterations o1.curIter := Nat.le_max_right _ _
      refine ⟨fun i hi => ?_, ?_⟩
      · unfold Opt.iterSeed Opt.addU64
        have : o1.params.seed + i < 2 ^ 64 := by omega
        rw [if_pos this, if_pos this]
      · unfold Opt.shuffleSeed Opt.addU64
        have : o1.params.seed + o1.curIter < 2 ^ 64 := by omega
        rw [if_pos this, if_pos this]

/-- For a fresh run of a newly built optimizer the condition is `seed + iterations < 2^64`. -/
theorem C38_fresh_partial {env : Env n} {o : Opt n} (checks : Bool) (hb : Built o)
    (hseed : o.params.seed + o.params.iterations < 2 ^ 64) :
    run { env with overflowChecks := checks } o none = run env o none := by
  refine C38_seed_partial checks ?_
  intro o1 r h
  rw [(startOpt_fresh h).2]
  show o.params.seed + Nat.max o.params.iterations o.curIter < 2 ^ 64
  rw [hb.unused.curIter]
  have : Nat.max o.params.iterations 0 = o.params.iterations := Nat.max_eq_left (Nat.zero_le _)
  rw [this]
  exact hseed

/-- With overflow checks (debug builds) the largest seed makes `run` panic in stage 2, although the same
run succeeds without them. -/
theorem C38_violated :
    ∃ (e : Env 1) (o : Opt 1), Built o ∧ o.params.seed < 2 ^ 64 ∧
      (run { e with overflowChecks := true } o none).result = .error .panic ∧
      succeeds (run { e with overflowChecks := false } o none) = true :=
  ⟨env stay, mk lin (params 4 6 (2 ^ 64 - 1)) (by decide +kernel), mk_built _, by decide +kernel,
    resultErr_iff (by decide +kernel), by decide +kernel⟩

end GS.Props
