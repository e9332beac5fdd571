/- C47, C49, C57: the schedule of checkpoints and callbacks in sequential runs, and what resuming does. -/
import Verif.Lemmas.Marks
import Verif.Props.Resume
import Verif.Props.Batch

namespace GS.Props
open GS F64 GS.Witness
variable {n : Nat}

/-- Iterations and checkpoint writes. -/
def Mark.isWrite : Mark → Bool
  | .called _ => false
  | _ => true

/-- Iterations and callbacks. -/
def Mark.isCall : Mark → Bool
  | .called _ => true
  | .iteration _ => true
  | _ => false

/-- Iterations and checkpoint writes, in order. -/
def writes (tr : List (Event n)) : List Mark := (marks tr).filter Mark.isWrite

/-- Iterations and callback invocations, in order. -/
def calls (tr : List (Event n)) : List Mark := (marks tr).filter Mark.isCall

/-- An iteration followed by its periodic checkpoint, if one is due. -/
def savedBlock (f i : Nat) : List Mark := .iteration i :: if i % f = 0 then [.written i] else []

/-- An iteration followed by its callback, if one is due. -/
def calledBlock (f i : Nat) : List Mark := .iteration i :: if i % f = 0 then [.called i] else []

theorem started_key (env : Env n) (o : Opt n) : (started env o).cbKey = o.cbKey := by
  unfold started Opt.cbKey Opt.mapObs
  dsimp only
  rw [Option.map_map]
  cases o.obs with
  | none => rfl
  | some b =>
    simp only [Option.map_some, Function.comp_apply, (upd1_key _ _).1, (upd1_key _ _).2]
    unfold Obs.startTimer
    split <;> rfl

theorem fresh_shape {env : Env n} {o : Opt n} (hb : Built o) (hs : Sequential env o 0)
    (hp : Polite env) : Shape o.cbKey o.ckpt 0 (Act.body env false ⟨started env o, 0, 0, []⟩) := by
  have h := body_fresh_mk hp ⟨started env o, 0, 0, []⟩ (by
    have := hs.eff
    show ¬ 1 < o.effBatch env.threads 0
    omega)
  have hc : o.curIter = 0 := hb.unused.curIter
  have h2 : (⟨started env o, 0, 0, []⟩ : M n).sig.cur = 0 := hc
  have := RunMk.shape (s := (⟨started env o, 0, 0, []⟩ : M n).sig) rfl (by rw [h2]; exact h)
  rw [h2] at this
  rw [← started_key env o]
  exact this

theorem resumed_shape {env : Env n} {o : Opt n} {c : Ckpt n}
    (hs : Sequential env (o.restore c) c.currentIteration) (hp : Polite env) :
    Shape o.cbKey o.ckpt c.currentIteration
        (Act.body env true ⟨(started env o).restore c, 0, 0, []⟩) ∧
      (Act.body env true ⟨(started env o).restore c, 0, 0, []⟩).2 ≠ .stop := by
  obtain ⟨ref, h⟩ := body_resumed_mk hp ⟨(started env o).restore c, 0, 0, []⟩ (by
    have := hs.eff
    show ¬ 1 < (o.restore c).effBatch env.threads c.currentIteration
    omega)
  have hk : ((started env o).restore c).cbKey = o.cbKey := started_key env o
  refine ⟨?_, h.nostop⟩
  have := RunMk.shape (s := (⟨(started env o).restore c, 0, 0, []⟩ : M n).sig) rfl (Or.inr ⟨ref, h⟩)
  rw [← hk]
  exact this

/-! ### C49 -/

theorem callMarks_write (key : Option (Option Nat × Nat)) (i : Nat) :
    (callMarks key i).filter Mark.isWrite = [] := by
  unfold callMarks
  split
  · split <;> rfl
  · rfl

theorem writes_blocks (key : Option (Option Nat × Nat)) (cfg : CkptConfig) (l : List Nat) :
    (l.flatMap (block key (some cfg))).filter Mark.isWrite = l.flatMap (savedBlock cfg.saveFrequency) := by
  induction l with
  | nil => rfl
  | cons i l ih =>
    rw [List.flatMap_cons, List.flatMap_cons, List.filter_append, ih]
    congr 1
    unfold block savedBlock saveMarks
    dsimp only
    rw [List.filter_cons_of_pos rfl, List.filter_append, callMarks_write, List.nil_append]
    congr 1
    split <;> rfl

/-- The order of iterations and checkpoint writes of a run whose stage 2 starts at `st`. -/
def OnSchedule (f st : Nat) (reached : Prop) (tr : List (Event n)) : Prop :=
  ∃ k, writes tr = (List.range' st k).flatMap (savedBlock f) ++ [.written (st + (k - 1))] ∨
    (reached ∧ writes tr = (List.range' st k).flatMap (savedBlock f) ++
      [.iteration (st + k), .written (st + k)])

theorem shape_schedule {key : Option (Option Nat × Nat)} {cfg : CkptConfig} {st : Nat} {r : M n × Out}
    (h : Shape key (some cfg) st r) (hc : r.2 = .cont) :
    OnSchedule cfg.saveFrequency st (r.1.opt.targetReached = true) r.1.trace := by
  obtain ⟨k, h1 | ⟨h0, h1⟩⟩ := h.cont hc
  · refine ⟨k, Or.inl ?_⟩
    unfold writes
    rw [h1, List.filter_append, writes_blocks]
    rfl
  · refine ⟨k, Or.inr ⟨h0, ?_⟩⟩
    unfold writes
    rw [h1, List.filter_append, writes_blocks]
    rfl

/-- C49, schedule of a successful fresh run: nothing is written in stage 1; every completed iteration is
followed by a write under its own number exactly if the number is a multiple of `save_frequency`; one
more checkpoint is written at the very end.  Only if the target was reached in stage 1 is there no
checkpoint at all; the iteration that reaches the target in stage 2 is followed only by the final
one. -/
theorem C49_schedule {env : Env n} {o : Opt n} {loaded : Option (Except CkErr (Ckpt n))}
    {cfg : CkptConfig} {set : List (Sol n)} (hb : Built o) (hf : Fresh o loaded)
    (hs : Sequential env o 0) (hp : Polite env) (hc : o.ckpt = some cfg)
    (hok : (run env o loaded).result = .ok set) :
    (writes (run env o loaded).final.trace = [] ∧
        TargetMet o (run env o loaded).final.trace) ∨
      OnSchedule cfg.saveFrequency 0 (TargetMet o (run env o loaded).final.trace)
        (run env o loaded).final.trace := by
  obtain ⟨h1, h2, h3⟩ := freshPost hb hf hs
  have hsh := fresh_shape hb hs hp
  have hne : (started env o).solset ≠ some [] := by
    show o.solset ≠ some []
    rw [hb.unused.solset]; simp
  have htm : (Act.body env false ⟨started env o, 0, 0, []⟩).1.opt.targetReached = true ↔ TargetMet o
      (Act.body env false ⟨started env o, 0, 0, []⟩).1.trace :=
    (targetReached_iff (h3.inv.hist hne)).trans Iff.rfl
  rw [h1] at hok
  obtain ⟨_, hnf⟩ := finish_ok hok
  rw [h2]
  cases ho : (Act.body env false ⟨started env o, 0, 0, []⟩).2 with
  | fail e => exact absurd ho (hnf e)
  | stop =>
    left
    refine ⟨by unfold writes; rw [hsh.stop ho]; rfl, htm.1 ?_⟩
    rcases h3.shape with ⟨_, _, h⟩ | ⟨_, _, _, _, h, _⟩
    · exact h ho
    · exact absurd ho h
  | cont =>
    right
    rw [hc] at hsh
    rw [← htm]
    exact shape_schedule hsh ho

/-- C49, schedule of a successful resumed run, which starts at the iteration of the checkpoint. -/
theorem C49_schedule_resumed {env : Env n} {o : Opt n} {loaded : Option (Except CkErr (Ckpt n))}
    {c : Ckpt n} {cfg : CkptConfig} {set : List (Sol n)} (hr : Resumes o loaded c)
    (hs : Sequential env (o.restore c) c.currentIteration) (hp : Polite env) (hc : o.ckpt = some cfg)
    (hok : (run env o loaded).result = .ok set) :
    OnSchedule cfg.saveFrequency c.currentIteration
      ((run env o loaded).final.opt.targetReached = true) (run env o loaded).final.trace := by
  have hsh := (resumed_shape hs hp).1
  have h1 := run_resumes env o loaded hr
  rw [h1] at hok
  obtain ⟨_, hnf⟩ := finish_ok hok
  rw [h1, finish_final]
  cases ho : (Act.body env true ⟨(started env o).restore c, 0, 0, []⟩).2 with
  | fail e => exact absurd ho (hnf e)
  | stop => exact absurd ho (resumed_shape hs hp).2
  | cont =>
    rw [hc] at hsh
    exact shape_schedule hsh ho

/-- C49, schedule of a failing run, fresh or resumed: until the failure everything is as in a successful
run, and then at most one more iteration was begun; a write that fails is the last thing that
happens. -/
theorem C49_failing {env : Env n} {o : Opt n} {loaded : Option (Except CkErr (Ckpt n))}
    {cfg : CkptConfig} {st : Nat} {e : Err}
    (h : (Built o ∧ Fresh o loaded ∧ Sequential env o 0 ∧ st = 0) ∨
      ∃ c, Resumes o loaded c ∧ Sequential env (o.restore c) c.currentIteration ∧
        st = c.currentIteration) (hp : Polite env) (hc : o.ckpt = some cfg)
    (hres : (run env o loaded).result = .error e) (hne : e ≠ .noFeasibleSolution 0) :
    ∃ k t, writes (run env o loaded).final.trace =
        (List.range' st k).flatMap (savedBlock cfg.saveFrequency) ++ t ∧
      (t = [.failed (st + (k - 1))] ∨ t <+: [.iteration (st + k), .failed (st + k)]) := by
  have key : ∀ r : M n × Out, Shape o.cbKey o.ckpt st r → run env o loaded = finish r →
      ∃ k t, writes (run env o loaded).final.trace =
        (List.range' st k).flatMap (savedBlock cfg.saveFrequency) ++ t ∧
      (t = [.failed (st + (k - 1))] ∨ t <+: [.iteration (st + k), .failed (st + k)]) := by
    intro r hsh hrun
    rw [hrun] at hres ⊢
    rw [finish_final]
    have hfail : ∃ e', r.2 = .fail e' := by
      obtain ⟨m, o'⟩ := r
      cases o' with
      | fail e' => exact ⟨e', rfl⟩
      | cont =>
        exfalso
        unfold finish at hres
        dsimp only at hres
        split at hres
        · cases hres
        · cases hres; exact hne rfl
      | stop =>
        exfalso
        unfold finish at hres
        dsimp only at hres
        split at hres
        · cases hres
        · cases hres; exact hne rfl
    obtain ⟨e', he'⟩ := hfail
    rw [hc] at hsh
    obtain ⟨k, t, h1, h2⟩ := hsh.fail e' he'
    refine ⟨k, t.filter Mark.isWrite, ?_, ?_⟩
    · unfold writes
      rw [h1, List.filter_append, writes_blocks]
    · rcases h2 with rfl | rfl | h2
      · exact Or.inl rfl
      · exact Or.inr List.prefix_rfl
      · right
        have := h2.filter Mark.isWrite
        rw [List.filter_cons_of_pos rfl, List.filter_append] at this
        rw [callMarks_write] at this
        exact this
  rcases h with ⟨hb, hf, hs, rfl⟩ | ⟨c, hr, hs, rfl⟩
  · exact key _ (fresh_shape hb hs hp) (run_fresh env o loaded hf)
  · exact key _ ((resumed_shape hs hp).1) (run_resumes env o loaded hr)

/-- C49, contents, in any run (fresh or resumed, sequential or parallel, successful or not): every
checkpoint records its own iteration number, the solution set made of everything found so far, the same
solutions as the filter's, and the settings. -/
theorem C49_contents {env : Env n} {o o1 : Opt n} {loaded : Option (Except CkErr (Ckpt n))} {res : Bool}
    (hs : startOpt env o loaded = .ok (o1, res)) (hne : o1.solset ≠ some []) {pre post : List (Event n)}
    {it : Nat} {c : Ckpt n} (h : (run env o loaded).final.trace = pre ++ .saved it c :: post) :
    c.currentIteration = it ∧ c.solutionSet = setFold o1.setCfg o1.solset (procs pre) ∧
      c.distanceFilterSolutions = o1.dist.solutions ++ procs pre ∧ c.params = o1.params ∧
      c.targetObjective = o1.target ∧ c.excludeOutOfBounds = o1.exclude ∧
      c.batchIterations = o1.batch ∧ c.enableParallel = o1.par ∧ c.absTol = o1.absTol ∧
      c.relTol = o1.relTol :=
  savedOk (o := o1) hne (run_reach env o loaded hs) pre it c post h

/-- C49, threshold: in a sequential run every checkpoint records the merit threshold that the events
before it lead to. -/
theorem C49_threshold {env : Env n} {o : Opt n} {loaded : Option (Except CkErr (Ckpt n))} (hb : Built o)
    (hf : Fresh o loaded) (hs : Sequential env o 0) {pre post : List (Event n)} {it : Nat} {c : Ckpt n}
    (h : (run env o loaded).final.trace = pre ++ .saved it c :: post) :
    c.meritThreshold = thrAfter F64.inf pre := by
  obtain ⟨_, h2, h3⟩ := freshPost hb hf hs
  rw [h2] at h
  have := h3.inv.just pre _ post h
  rw [← hb.unused.merit]
  exact this

/-- The same for resumed runs. -/
theorem C49_threshold_resumed {env : Env n} {o : Opt n} {loaded : Option (Except CkErr (Ckpt n))}
    {c0 : Ckpt n} (hr : Resumes o loaded c0) (hs : Sequential env (o.restore c0) c0.currentIteration)
    (hne : c0.solutionSet ≠ some []) (ht : (o.restore c0).targetReached = false)
    {pre post : List (Event n)} {it : Nat} {c : Ckpt n}
    (h : (run env o loaded).final.trace = pre ++ .saved it c :: post) :
    c.meritThreshold = thrAfter c0.meritThreshold pre := by
  rw [run_resumes env o loaded hr, finish_final] at h
  have h3 := resumed_post (env := env) (o := (started env o).restore c0) hne ht (by
    have := hs.eff
    show ¬ 1 < (o.restore c0).effBatch env.threads c0.currentIteration
    omega)
  exact h3.inv.just pre _ post h

/-- C49, end: the last thing a successful run with checkpoints does (unless the target was reached in
stage 1) is to write a checkpoint with exactly the returned solution set. -/
theorem C49_final {env : Env n} {o : Opt n} {loaded : Option (Except CkErr (Ckpt n))}
    {cfg : CkptConfig} {set : List (Sol n)} (hb : Built o) (hf : Fresh o loaded)
    (hs : Sequential env o 0) (hp : Polite env) (hc : o.ckpt = some cfg)
    (hok : (run env o loaded).result = .ok set)
    (hw : writes (run env o loaded).final.trace ≠ []) :
    ∃ pre it c, (run env o loaded).final.trace = pre ++ [.saved it c] ∧
      c.solutionSet = some set := by
  obtain ⟨h1, h2, h3⟩ := freshPost hb hf hs
  have hsh := fresh_shape hb hs hp
  have hne : (started env o).solset ≠ some [] := by
    show o.solset ≠ some []
    rw [hb.unused.solset]; simp
  rw [h1] at hok
  obtain ⟨hset, hnf⟩ := finish_ok hok
  rw [h2] at hw ⊢
  cases ho : (Act.body env false ⟨started env o, 0, 0, []⟩).2 with
  | fail e => exact absurd ho (hnf e)
  | stop => exact absurd (by unfold writes; rw [hsh.stop ho]; rfl) hw
  | cont =>
    rw [hc] at hsh
    obtain ⟨pre, it, c, hl⟩ := hsh.last ho rfl
    refine ⟨pre, it, c, hl, ?_⟩
    obtain ⟨u, sv, hr⟩ := h3.inv.reach
    have h4 := savedOk hne hr pre it c [] hl
    have h5 := (h3.inv.hist hne).solset
    rw [h4.2.1, ← hset, h5, hl, procs_append]
    simp [procs]

/-- A sequential run that writes checkpoints after every other iteration. -/
def saving : Opt 1 := demoSeq.withCheckpointing ⟨"run", 2, true, false⟩

theorem saving_built : Built saving := Built.checkpointing _ demoSeq_built
theorem env_polite (solve : SolverType → SolverConfig → Pt n → Except LErr (Sol n × Nat)) :
    Polite (env solve) := fun _ _ _ => ⟨rfl, rfl⟩

example : writes (run (env stay) saving none).final.trace =
    [.iteration 0, .written 0, .iteration 1, .iteration 2, .written 2, .iteration 3, .written 3] := by
  decide +kernel
example : ∃ set, (run (env stay) saving none).result = .ok set :=
  succeeds_iff (by decide +kernel)
example : Built saving ∧ Fresh saving none ∧ Sequential (env stay) saving 0 ∧ Polite (env stay) ∧
    saving.ckpt = some ⟨"run", 2, true, false⟩ :=
  ⟨saving_built, Or.inl rfl, Or.inl rfl, env_polite _, rfl⟩
/-- A run whose second write fails. -/
example : writes (run { env stay with io := fun k => if k = 1 then some .io else none } saving
      none).final.trace = [.iteration 0, .written 0, .iteration 1, .iteration 2, .failed 2] := by
  decide +kernel

/-! ### C57 -/

theorem saveMarks_call (ck : Option CkptConfig) (i : Nat) : (saveMarks ck i).filter Mark.isCall = [] := by
  unfold saveMarks
  split
  · split <;> rfl
  · rfl

theorem finalMarks_call (ck : Option CkptConfig) (i : Nat) :
    (finalMarks ck i).filter Mark.isCall = [] := by
  unfold finalMarks
  split <;> rfl

theorem calls_blocks (id f : Nat) (ck : Option CkptConfig) (l : List Nat) :
    (l.flatMap (block (some (some id, f)) ck)).filter Mark.isCall = l.flatMap (calledBlock f) := by
  induction l with
  | nil => rfl
  | cons i l ih =>
    rw [List.flatMap_cons, List.flatMap_cons, List.filter_append, ih]
    congr 1
    unfold block calledBlock callMarks
    dsimp only
    rw [List.filter_cons_of_pos rfl, List.filter_append, saveMarks_call, List.append_nil]
    congr 1
    split <;> rfl

theorem nocalls_blocks {key : Option (Option Nat × Nat)} (hk : ∀ c f, key ≠ some (some c, f))
    (ck : Option CkptConfig) (l : List Nat) :
    (l.flatMap (block key ck)).filter Mark.isCall = l.map Mark.iteration := by
  have hcm : ∀ i, callMarks key i = [] := by
    intro i
    unfold callMarks
    split
    · exact absurd rfl (hk _ _)
    · rfl
  induction l with
  | nil => rfl
  | cons i l ih =>
    rw [List.flatMap_cons, List.map_cons, List.filter_append, ih]
    unfold block
    rw [hcm, List.nil_append, List.filter_cons_of_pos rfl, saveMarks_call]
    rfl

/-- The run is sequential and stage 2 starts at iteration `st`. -/
inductive SeqFrom (env : Env n) (o : Opt n) (loaded : Option (Except CkErr (Ckpt n))) : Nat → Prop where
  | fresh (hb : Built o) (hf : Fresh o loaded) (hs : Sequential env o 0) : SeqFrom env o loaded 0
  | resumed {c : Ckpt n} (hr : Resumes o loaded c)
      (hs : Sequential env (o.restore c) c.currentIteration) : SeqFrom env o loaded c.currentIteration

theorem SeqFrom.shape {env : Env n} {o : Opt n} {loaded : Option (Except CkErr (Ckpt n))} {st : Nat}
    (h : SeqFrom env o loaded st) (hp : Polite env) :
    ∃ r, run env o loaded = finish r ∧ Shape o.cbKey o.ckpt st r := by
  cases h with
  | fresh hb hf hs => exact ⟨_, run_fresh env o loaded hf, fresh_shape hb hs hp⟩
  | resumed hr hs => exact ⟨_, run_resumes env o loaded hr, (resumed_shape hs hp).1⟩

/-- C57: in a sequential run, fresh or resumed, that succeeds, the stage-2 callback is invoked exactly
once after each processed iteration whose index is a multiple of the frequency, and at no other time; only
an iteration that reaches the target (the last one) has no callback. -/
theorem C57_callbacks {env : Env n} {o : Opt n} {loaded : Option (Except CkErr (Ckpt n))} {st : Nat}
    {b : Obs n} {id : Nat} {set : List (Sol n)} (h : SeqFrom env o loaded st) (hp : Polite env)
    (hb : o.obs = some b) (hc : b.callback = some id) (hok : (run env o loaded).result = .ok set) :
    ∃ k, calls (run env o loaded).final.trace = (List.range' st k).flatMap (calledBlock b.frequency) ∨
      ((run env o loaded).final.opt.targetReached = true ∧ calls (run env o loaded).final.trace =
        (List.range' st k).flatMap (calledBlock b.frequency) ++ [.iteration (st + k)]) := by
  obtain ⟨r, hr, hsh⟩ := h.shape hp
  have hk : o.cbKey = some (some id, b.frequency) := by
    unfold Opt.cbKey
    rw [hb, Option.map_some, hc]
  rw [hk] at hsh
  rw [hr] at hok
  obtain ⟨_, hnf⟩ := finish_ok hok
  rw [hr, finish_final]
  unfold calls
  cases ho : r.2 with
  | fail e => exact absurd ho (hnf e)
  | stop => exact ⟨0, Or.inl (by rw [hsh.stop ho]; rfl)⟩
  | cont =>
    obtain ⟨k, h1 | ⟨h0, h1⟩⟩ := hsh.cont ho
    · exact ⟨k, Or.inl (by rw [h1, List.filter_append, calls_blocks, finalMarks_call, List.append_nil])⟩
    · refine ⟨k, Or.inr ⟨h0, ?_⟩⟩
      rw [h1, List.filter_append, calls_blocks, List.filter_cons_of_pos rfl, finalMarks_call]

/-- C57 for runs that end in any way: after the completed iterations there is at most one more, whose
callback may or may not have been reached. -/
theorem C57_any_outcome {env : Env n} {o : Opt n} {loaded : Option (Except CkErr (Ckpt n))} {st : Nat}
    {b : Obs n} {id : Nat} (h : SeqFrom env o loaded st) (hp : Polite env)
    (hb : o.obs = some b) (hc : b.callback = some id) :
    ∃ k t, calls (run env o loaded).final.trace =
        (List.range' st k).flatMap (calledBlock b.frequency) ++ t ∧
      t <+: calledBlock b.frequency (st + k) := by
  obtain ⟨r, hr, hsh⟩ := h.shape hp
  have hk : o.cbKey = some (some id, b.frequency) := by
    unfold Opt.cbKey
    rw [hb, Option.map_some, hc]
  rw [hk] at hsh
  rw [hr, finish_final]
  unfold calls
  cases ho : r.2 with
  | fail e =>
    obtain ⟨k, t, h1, h2⟩ := hsh.fail e ho
    refine ⟨k, t.filter Mark.isCall, by rw [h1, List.filter_append, calls_blocks], ?_⟩
    rcases h2 with rfl | rfl | h2
    · exact List.nil_prefix
    · exact ⟨_, rfl⟩
    · have := h2.filter Mark.isCall
      rw [List.filter_cons_of_pos rfl, List.filter_append] at this
      have e : calledBlock b.frequency (st + k) = .iteration (st + k) ::
          ((callMarks (some (some id, b.frequency)) (st + k)).filter Mark.isCall ++
            [Mark.failed (st + k)].filter Mark.isCall) := by
        unfold calledBlock callMarks
        dsimp only
        split <;> rfl
      rw [e]; exact this
  | stop => exact ⟨0, [], by rw [hsh.stop ho]; rfl, List.nil_prefix⟩
  | cont =>
    obtain ⟨k, h1 | ⟨h0, h1⟩⟩ := hsh.cont ho
    · exact ⟨k, [], by rw [h1, List.filter_append, calls_blocks, finalMarks_call], List.nil_prefix⟩
    · refine ⟨k, [.iteration (st + k)], ?_, ⟨_, rfl⟩⟩
      rw [h1, List.filter_append, calls_blocks, List.filter_cons_of_pos rfl, finalMarks_call]

/-- C57 without an observer or without a callback: nothing is ever invoked in stage 2. -/
theorem C57_none {env : Env n} {o : Opt n} {loaded : Option (Except CkErr (Ckpt n))} {st : Nat}
    (h : SeqFrom env o loaded st) (hp : Polite env)
    (hn : ∀ b, o.obs = some b → b.callback = none) (i : Nat) :
    Mark.called i ∉ marks (run env o loaded).final.trace := by
  obtain ⟨r, hr, hsh⟩ := h.shape hp
  have hk : ∀ c f, o.cbKey ≠ some (some c, f) := by
    intro c f hc
    unfold Opt.cbKey at hc
    cases hb : o.obs with
    | none => rw [hb] at hc; cases hc
    | some b =>
      rw [hb, Option.map_some, hn b hb] at hc
      cases hc
  have hcm : ∀ i, callMarks o.cbKey i = [] := by
    intro i
    unfold callMarks
    split
    · exact absurd ‹_› (hk _ _)
    · rfl
  rw [hr, finish_final]
  intro hm
  have hm2 : Mark.called i ∈ (marks r.1.trace).filter Mark.isCall := List.mem_filter.2 ⟨hm, rfl⟩
  cases ho : r.2 with
  | fail e =>
    obtain ⟨k, t, h1, h2⟩ := hsh.fail e ho
    rw [h1, List.filter_append, nocalls_blocks hk, List.mem_append] at hm2
    rcases hm2 with hm2 | hm2
    · simp at hm2
    · rcases h2 with rfl | rfl | h2
      · simp [Mark.isCall] at hm2
      · simp [Mark.isCall] at hm2
      · rw [hcm] at h2
        have := h2.subset (List.mem_filter.1 hm2).1
        simp at this
  | stop => rw [hsh.stop ho] at hm; cases hm
  | cont =>
    obtain ⟨k, h1 | ⟨h0, h1⟩⟩ := hsh.cont ho
    · rw [h1, List.filter_append, nocalls_blocks hk, finalMarks_call] at hm2
      simp at hm2
    · rw [h1, List.filter_append, nocalls_blocks hk, List.filter_cons_of_pos rfl, finalMarks_call] at hm2
      simp at hm2

/-- A sequential run with a callback on every second iteration. -/
def calling : Opt 1 := demoSeq.addObserver (((Obs.new.withStage2).withCallback 7).withFrequency 2)

example : calls (run (env stay) calling none).final.trace =
    [.iteration 0, .called 0, .iteration 1, .iteration 2, .called 2, .iteration 3] := by decide +kernel
example : SeqFrom (env stay) calling none 0 :=
  .fresh (Built.observer _ demoSeq_built) (Or.inl rfl) (Or.inl rfl)
example : ∃ set, (run (env stay) calling none).result = .ok set := succeeds_iff (by decide +kernel)

/-- The frequency zero is accepted when it is set, and then panics in the first iteration. -/
theorem C57_frequency_zero : ∃ (env : Env 1) (o : Opt 1), Built o ∧ Sequential env o 0 ∧
    calls (run env o none).final.trace = [.iteration 0] ∧
    (run env o none).result = .error .panic :=
  ⟨env stay, demoSeq.addObserver (((Obs.new.withStage2).withCallback 7).withFrequency 0),
    Built.observer _ demoSeq_built, Or.inl rfl, by decide +kernel, by decide +kernel⟩

/-! ### C47 -/

/-- Part of C47: a resumed sequential run that is not stopped by the time limit or the target examines,
each once and in order, exactly the points of the stored reference set from the stored index on (so the
iteration in which the checkpoint was written is done again).  Missing from C47: the stored reference set
is not in the shuffled order of the interrupted run, see `C47_violated`. -/
theorem C47_remaining_partial {env : Env n} {o : Opt n} {loaded : Option (Except CkErr (Ckpt n))}
    {c : Ckpt n} {set : List (Sol n)} (hr : Resumes o loaded c)
    (hs : Sequential env (o.restore c) c.currentIteration) (hne : c.solutionSet ≠ some [])
    (ht : (o.restore c).targetReached = false) (hm : o.maxTime = none)
    (hok : (run env o loaded).result = .ok set)
    (hnt : (run env o loaded).final.opt.targetReached = false) :
    (examined (run env o loaded).final.trace).map Prod.fst =
        (List.range (min c.params.iterations c.referenceSet.length)).drop c.currentIteration ∧
      (examined (run env o loaded).final.trace).map Prod.snd =
        (c.referenceSet.take c.params.iterations).drop c.currentIteration := by
  have h1 := run_resumes env o loaded hr
  rw [h1] at hok hnt
  obtain ⟨_, hnf⟩ := finish_ok hok
  rw [finish_final] at hnt
  rw [h1, finish_final]
  have h3 := resumed_post (env := env) (o := (started env o).restore c) hne ht (by
    have := hs.eff
    show ¬ 1 < (o.restore c).effBatch env.threads c.currentIteration
    omega)
  have hc : (Act.body env true ⟨(started env o).restore c, 0, 0, []⟩).2 = .cont := by
    cases ho : (Act.body env true ⟨(started env o).restore c, 0, 0, []⟩).2 with
    | fail e => exact absurd ho (hnf e)
    | stop => exact absurd ho h3.nostop
    | cont => rfl
  rcases h3.cont hc with h | ⟨k, ⟨h, _⟩, _⟩ | h
  · rw [hnt] at h; cases h
  · unfold Act.timedOut at h
    rw [show ((started env o).restore c).maxTime = o.maxTime from rfl, hm] at h
    cases h
  · rw [h.1]
    refine ⟨items_iters c.params.iterations c.currentIteration c.referenceSet, ?_⟩
    show (Act.items c.params.iterations c.currentIteration c.referenceSet).map Prod.snd = _
    apply List.ext_getElem?
    intro j
    rw [List.getElem?_map, items_get, List.getElem?_drop, Option.map_map]
    cases (c.referenceSet.take c.params.iterations)[c.currentIteration + j]? <;> rfl

/-- A problem with constant objective. -/
def flat1 : Problem 1 := { lin with objective := fun _ => .ok F64.one }
/-- A local solver that stays where it is. -/
def stay1 (_ : SolverType) (_ : SolverConfig) (p : Pt 1) : Except LErr (Sol 1 × Nat) :=
  .ok (⟨p, F64.one⟩, 1)
theorem flat1_ok : (Opt.new flat1 (params 3 6 0)).toOption.isSome = true := by decide +kernel
/-- A sequential run that can be interrupted after every iteration. -/
def stops : Opt 1 :=
  ((mk flat1 (params 3 6 0) flat1_ok).setParallel false).withCheckpointing ⟨"run", 1, true, true⟩

/-- The checkpoints a run has written. -/
def savedIn (tr : List (Event n)) : List (Ckpt n) :=
  tr.filterMap fun e => match e with
    | .saved _ c => some c
    | _ => none

/-- C47 is false: there is a sequential run such that resuming from any of the checkpoints it wrote, with
the same optimizer settings and environment, gives a solution set of another size.  The reference set is
stored in the order before the shuffle of stage 2, and the index of the checkpoint refers to the order
after it. -/
theorem C47_violated : ∃ (env : Env 1) (o : Opt 1), env.rt.Valid ∧ Built o ∧ Sequential env o 0 ∧
    savedIn (run env o none).final.trace ≠ [] ∧ resultSize (run env o none) = some 2 ∧
    ∀ c ∈ savedIn (run env o none).final.trace,
      Resumes o (some (.ok c)) c ∧ resultSize (run env o (some (.ok c))) = some 3 :=
  ⟨env stay1, stops, rt_valid, Built.checkpointing _ (Built.parallel _ (mk_built flat1_ok)), Or.inl rfl,
    by decide +kernel, by decide +kernel, fun c hc => ⟨⟨rfl, _, rfl, rfl⟩, by
      revert c; decide +kernel⟩⟩

/-- The hypotheses of `C47_remaining_partial` hold for every checkpoint of that run. -/
example : ∀ c ∈ savedIn (run (env stay1) stops none).final.trace,
    (stops.restore c).targetReached = false ∧ stops.maxTime.isNone = true ∧
    (c.solutionSet.getD []).isEmpty = false ∧ succeeds (run (env stay1) stops (some (.ok c))) = true ∧
    (run (env stay1) stops (some (.ok c))).final.opt.targetReached = false := by decide +kernel

end GS.Props
