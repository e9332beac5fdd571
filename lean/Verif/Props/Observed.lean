/- C55, C56, C59: what the observer of a run shows. -/
import Verif.Lemmas.Tally
import Verif.Props.Batch
import Verif.Props.Outcome
import Verif.Props.Observer

namespace GS.Props
open GS F64 GS.Witness
variable {n : Nat}

/-! ### Stage 2 -/

/-- The observer's numbers about stage 2 before a run, if it is told about stage 2. -/
structure Watches2 (o : Opt n) (b : Obs n) (s : Stage2 n) : Prop where
  obs : o.obs = some b
  mode : b.mode ≠ .stage1Only
  stage2 : b.stage2 = some s
  new : b.stage2Started = false

theorem started_obs (env : Env n) (o : Opt n) (b : Obs n) (h : o.obs = some b) :
    ∃ b', (started env o).obs = some b' ∧ b'.mode = b.mode ∧ b'.stage2 = b.stage2 ∧
      b'.stage2Started = b.stage2Started ∧ b'.stage1Completed = b.stage1Completed ∧
      ∀ s, b.seen1 = some s → ∃ s', b'.seen1 = some s' ∧ s'.functionEvaluations = s.functionEvaluations := by
  unfold started Opt.mapObs
  dsimp only
  rw [h]
  have ht : ∃ x, b.startTimer (env.time 0) = { b with startTime := x } := by
    unfold Obs.startTimer
    split
    · exact ⟨_, rfl⟩
    · exact ⟨b.startTime, rfl⟩
  obtain ⟨x, hx⟩ := ht
  rw [Option.map_some, hx]
  obtain ⟨y, hy⟩ := upd1_rest ({ b with startTime := x } : Obs n) (·.start (env.time 0))
  refine ⟨_, rfl, by rw [hy], by rw [hy], by rw [hy], by rw [hy], fun s hs => ?_⟩
  refine ⟨s.start (env.time 0), ?_, rfl⟩
  rw [seen1_upd1]
  rw [show ({ b with startTime := x } : Obs n).seen1 = b.seen1 from rfl, hs]; rfl

theorem seen2_of {b : Obs n} {s : Stage2 n} (hm : b.mode ≠ .stage1Only) (h : b.stage2 = some s) :
    b.seen2 = some s := by
  unfold Obs.seen2
  rw [if_neg hm]; exact h

theorem of_seen2 {b : Obs n} {s : Stage2 n} (h : b.seen2 = some s) : b.stage2 = some s := by
  unfold Obs.seen2 at h
  split at h
  · cases h
  · exact h

theorem strip_some {a b : Option (Stage2 n)} (h : a.map Stage2.strip = b.map Stage2.strip) {s : Stage2 n}
    (hb : b = some s) : ∃ s', a = some s' ∧ s'.localCalls = s.localCalls ∧
      s'.improvedCalls = s.improvedCalls ∧ s'.functionEvaluations = s.functionEvaluations := by
  subst hb
  cases a with
  | none => cases h
  | some s' =>
    have h : s'.strip = s.strip := Option.some.inj h
    exact ⟨s', rfl, (congrArg Stage2.localCalls h : s'.strip.localCalls = _),
      (congrArg Stage2.improvedCalls h : s'.strip.improvedCalls = _),
      (congrArg Stage2.functionEvaluations h : s'.strip.functionEvaluations = _)⟩

/-- What the observer shows at the end of a run whose events are those of stage 1, `t1`, and those of
stage 2, `t2`. -/
structure Shows (s : Stage2 n) (m : M n) (t1 t2 : List (Event n)) : Prop where
  trace : m.trace = t1 ++ t2
  first : nSearch t1 = 0
  calls : ∃ b' s', m.opt.obs = some b' ∧ b'.stage2 = some s' ∧
    s'.localCalls = s.localCalls + nProc t2 ∧ s'.improvedCalls = s.improvedCalls + nRet t2 ∧
    (b'.stage2Started = true → SizeOk s' m.opt.solset)

/-- Stage 2 from the state `m1` on. -/
theorem shows_main {env : Env n} (ht : Tame env) {s s1 : Stage2 n} {m1 : M n} {r : Bool} {st : Nat}
    {ref : List (Pt n)} {objs : Option (List F64)} (hs : m1.seen2 = some s1)
    (h1 : s1.localCalls = s.localCalls) (h2 : s1.improvedCalls = s.improvedCalls)
    (h3 : SizeOk s1 m1.opt.solset) (hn : nSearch m1.trace = 0)
    (hf : ∀ e, (Act.stage2Main env r st ref objs m1).2 ≠ .fail e) :
    ∃ t2, Shows s (Act.stage2Main env r st ref objs m1).1 m1.trace t2 := by
  have hC := (callsTrack ht).main r st ref objs m1 (fun _ => hf)
  obtain ⟨_, t, htr, hC⟩ := hC
  obtain ⟨s', g1, g2, g3, g4⟩ := hC s1 hs
  unfold M.seen2 at g1
  cases ho : (Act.stage2Main env r st ref objs m1).1.opt.obs with
  | none => rw [ho] at g1; cases g1
  | some b' =>
    rw [ho] at g1
    exact ⟨t, htr, hn, b', s', ho, of_seen2 g1, by rw [g2, h1], by rw [g3, h2], fun _ => g4 h3⟩

/-- C55, any mode: an observer told about stage 2 shows, at the end of a run that starts with stage 1 and
succeeds, one more local call for every local solution processed in stage 2 and one more improved call for
every one that was reported as added; if stage 2 was entered, the shown size is that of the returned
set. -/
theorem C55_processed {env : Env n} {o : Opt n} {loaded : Option (Except CkErr (Ckpt n))} {b : Obs n}
    {s : Stage2 n} {set : List (Sol n)} (ht : Tame env) (hw : Watches2 o b s) (hfr : Fresh o loaded)
    (hr : (run env o loaded).result = .ok set) :
    ∃ t1 t2, nProc t1 = 1 ∧ Shows s (run env o loaded).final t1 t2 ∧
      (run env o loaded).final.opt.solset = some set := by
  rw [run_fresh env o loaded hfr] at hr ⊢
  obtain ⟨hset, hnf⟩ := finish_ok hr
  rw [finish_final]
  obtain ⟨b1, e1, e2, e3, e4, _⟩ := started_obs env o b hw.obs
  obtain ⟨r, m4, _, _, hF, hcase⟩ := body_fresh_tally ht ⟨started env o, 0, 0, []⟩ hnf
  obtain ⟨hcfg, ⟨t, htr, hz1, hz2, _⟩, hobs⟩ := hF
  obtain ⟨b4, f1, f2, f3, f4, _⟩ := hobs b1 e1
  obtain ⟨s4, g1, g2, g3, g4⟩ := strip_some f4 (e3.trans hw.stage2)
  have htr : m4.trace = t := htr
  rcases hcase with hcase | ⟨ref, objs, sd, hcase⟩
  · rw [hcase] at hset ⊢
    refine ⟨t, [], hz2, ⟨by simp [htr], hz1, b4, s4, f1, g1, g2, g3, fun hst => ?_⟩, hset⟩
    rw [f3, e4, hw.new] at hst
    cases hst
  · rw [hcase] at hset hnf ⊢
    have hsm : M.seen2 { m4 with uc := 0 } = some s4 := by
      unfold M.seen2
      dsimp only
      rw [f1]
      exact seen2_of (by rw [f2, e2]; exact hw.mode) g1
    obtain ⟨s5, k1, k2, k3, k4, k5⟩ := start2_seen env { m4 with uc := 0 } s4 hsm
    have hm5 : (enter2 env sd m4).trace = t := htr
    obtain ⟨t2, hS⟩ := shows_main ht (s := s) (m1 := enter2 env sd m4) (r := false) (st := 0) (ref := ref)
      (objs := objs) k1 (k2.trans g2) (k3.trans g3) k5 (by rw [hm5]; exact hz1) hnf
    rw [hm5] at hS
    exact ⟨t, t2, hz2, hS, hset⟩

/-- C55, any mode, for a run that resumes from a checkpoint. -/
theorem C55_processed_resumed {env : Env n} {o : Opt n} {loaded : Option (Except CkErr (Ckpt n))}
    {c : Ckpt n} {b : Obs n} {s : Stage2 n} {set : List (Sol n)} (ht : Tame env) (hw : Watches2 o b s)
    (hrs : Resumes o loaded c) (hr : (run env o loaded).result = .ok set) :
    ∃ t2, Shows s (run env o loaded).final [] t2 ∧ (run env o loaded).final.opt.solset = some set := by
  rw [run_resumes env o loaded hrs] at hr ⊢
  obtain ⟨hset, hnf⟩ := finish_ok hr
  rw [finish_final]
  obtain ⟨b1, e1, e2, e3, e4, _⟩ := started_obs env o b hw.obs
  unfold Act.body at hset hnf ⊢
  simp only [if_true] at hset hnf ⊢
  unfold Act.stage2 at hset hnf ⊢
  rw [Act.seq_def, show (Act.obsStart2 (n := n) env _).2 = .cont from rfl, if_pos rfl] at hset hnf ⊢
  simp only [if_true] at hset hnf ⊢
  obtain ⟨s5, k1, k2, k3, k4, k5⟩ := start2_seen env
    { (⟨(started env o).restore c, 0, 0, []⟩ : M n) with uc := ((started env o).restore c).unchanged } s
    (by
      unfold M.seen2
      show (started env o).obs.bind Obs.seen2 = some s
      rw [e1]
      exact seen2_of (by rw [e2]; exact hw.mode) (e3.trans hw.stage2))
  obtain ⟨t2, hS⟩ := shows_main ht (s := s) k1 k2 k3 k5 rfl hnf
  exact ⟨t2, hS, hset⟩

/-- Sequential stage 2 from the state `m1` on. -/
theorem evals_main {env : Env n} (ht : Tame env) {s1 : Stage2 n} {m1 : M n} {r : Bool} {st : Nat}
    {ref : List (Pt n)} {objs : Option (List F64)} (hs : m1.seen2 = some s1)
    (hq : m1.opt.effBatch env.threads st = 1)
    (hf : ∀ e, (Act.stage2Main env r st ref objs m1).2 ≠ .fail e) :
    ∃ t2 b' s', (Act.stage2Main env r st ref objs m1).1.trace = m1.trace ++ t2 ∧
      (Act.stage2Main env r st ref objs m1).1.opt.obs = some b' ∧ b'.stage2 = some s' ∧
      nSearch t2 = nProc t2 ∧ s'.functionEvaluations =
        s1.functionEvaluations + evalsOf env m1.opt.lsType m1.opt.lsConfig t2 := by
  have hE := (evalsTrack ht).main r st ref objs m1 (by omega) (fun _ => hf)
  obtain ⟨_, _, t, htr, hn, hE⟩ := hE
  obtain ⟨s', g1, g2⟩ := hE s1 hs
  unfold M.seen2 at g1
  cases ho : (Act.stage2Main env r st ref objs m1).1.opt.obs with
  | none => rw [ho] at g1; cases g1
  | some b' =>
    rw [ho] at g1
    exact ⟨t, b', s', htr, rfl, of_seen2 g1, hn, g2⟩

theorem effBatch_cfg {a b : Opt n} (h : SameCfg a b) (t st : Nat) : b.effBatch t st = a.effBatch t st := by
  unfold Opt.effBatch
  rw [h.par, h.batch, h.params]

/-- C55, sequential: at the end of a run that starts with stage 1 and succeeds, the observer shows one more
local call for every stage-2 local search, as many more objective evaluations as the local searches and the
evaluations of stage 2 took, and (if stage 2 was entered) the size of the returned set. -/
theorem C55_sequential {env : Env n} {o : Opt n} {loaded : Option (Except CkErr (Ckpt n))} {b : Obs n}
    {s : Stage2 n} {set : List (Sol n)} (ht : Tame env) (hw : Watches2 o b s) (hfr : Fresh o loaded)
    (hq : Sequential env o 0) (hr : (run env o loaded).result = .ok set) :
    ∃ b' s', (run env o loaded).final.opt.obs = some b' ∧ b'.stage2 = some s' ∧
      s'.localCalls = s.localCalls + nSearch (run env o loaded).final.trace ∧
      s'.functionEvaluations = s.functionEvaluations +
        evalsOf env o.lsType o.lsConfig (run env o loaded).final.trace ∧
      (b'.getStage2 = some s' → s'.solutionSetSize = set.length) := by
  obtain ⟨t1, t2, _, ⟨hS1, hS2, b', s', c1, c2, c3, c4, c5⟩, hset⟩ := C55_processed ht hw hfr hr
  refine ⟨b', s', c1, c2, ?_⟩
  rw [run_fresh env o loaded hfr, finish_final] at *
  have hnf := (finish_ok hr).2
  obtain ⟨b1, e1, e2, e3, e4, _⟩ := started_obs env o b hw.obs
  obtain ⟨r, m4, _, _, hF, hcase⟩ := body_fresh_tally ht ⟨started env o, 0, 0, []⟩ hnf
  obtain ⟨hcfg, ⟨t, htr, hz1, hz2, hz3, _⟩, hobs⟩ := hF
  obtain ⟨b4, f1, f2, f3, f4, _⟩ := hobs b1 e1
  obtain ⟨s4, g1, g2, g3, g4⟩ := strip_some f4 (e3.trans hw.stage2)
  have htr : m4.trace = t := htr
  rcases hcase with hcase | ⟨ref, objs, sd, hcase⟩
  · rw [hcase] at hset c1 ⊢
    rw [f1] at c1
    cases c1
    rw [g1] at c2
    cases c2
    rw [htr, hz1, hz3]
    refine ⟨g2, g4, fun hst => ?_⟩
    unfold Obs.getStage2 at hst
    rw [f3, e4, hw.new] at hst
    cases hst
  · rw [hcase] at hset hnf c1 hS1 c5 ⊢
    have hsm : M.seen2 { m4 with uc := 0 } = some s4 := by
      unfold M.seen2
      dsimp only
      rw [f1]
      exact seen2_of (by rw [f2, e2]; exact hw.mode) g1
    obtain ⟨s5, k1, k2, k3, k4, k5⟩ := start2_seen env { m4 with uc := 0 } s4 hsm
    have hm5 : (enter2 env sd m4).trace = t := htr
    have hcfg5 : SameCfg (started env o) (enter2 env sd m4).opt := by
      refine hcfg.trans (SameCfg.trans (start2_cfg env { m4 with uc := 0 }).1 ?_)
      constructor <;> rfl
    obtain ⟨u, b'', s'', u1, u2, u3, u4, u5⟩ := evals_main ht (m1 := enter2 env sd m4) (r := false)
      (st := 0) (ref := ref) (objs := objs) k1
      (by rw [effBatch_cfg hcfg5]; exact hq.eff) hnf
    rw [u2] at c1
    cases c1
    rw [u3] at c2
    cases c2
    have hC := (callsTrack ht).main false 0 ref objs (enter2 env sd m4) (fun _ => hnf)
    obtain ⟨_, t', htr', hC⟩ := hC
    obtain ⟨s3, q1, q2, q3, q4⟩ := hC s5 k1
    unfold M.seen2 at q1
    rw [u2] at q1
    have q1 := of_seen2 q1
    rw [u3] at q1
    cases q1
    have : t' = u := List.append_cancel_left (htr'.symm.trans u1)
    subst this
    refine ⟨?_, ?_, fun hg => ?_⟩
    · rw [u1, nSearch_append, hm5, hz1, Nat.zero_add, u4, q2, k2, g2]
    · rw [u1, evalsOf_append, hm5, hz3, Nat.zero_add, u5, k4, g4, hcfg5.lsType, hcfg5.lsConfig]
      rfl
    · refine c5 ?_ set hset
      unfold Obs.getStage2 at hg
      split at hg
      · assumption
      · cases hg

theorem env_tame (solve : SolverType → SolverConfig → Pt n → Except LErr (Sol n × Nat)) :
    Tame (env solve) := fun _ _ b => ⟨b.prev, rfl⟩

/-- A local search that improves on the constant objective by a different amount everywhere. -/
def slope (_ : SolverType) (_ : SolverConfig) (p : Pt 1) : Except LErr (Sol 1 × Nat) :=
  .ok (⟨p, (num 6).sub (p 0)⟩, 5)

/-- A sequential optimizer with an observer of both stages. -/
def watched : Opt 1 := (flatOpt.setParallel false).addObserver watcher

theorem watched_watches : Watches2 watched watcher Stage2.new := ⟨rfl, by decide, rfl, rfl⟩

example : Tame (env slope) ∧ Fresh watched none ∧ Sequential (env slope) watched 0 ∧
    succeeds (run (env slope) watched none) = true ∧
    nSearch (run (env slope) watched none).final.trace = 2 :=
  ⟨env_tame _, Or.inl rfl, Or.inl rfl, by decide +kernel, by decide +kernel⟩

/-- The event is the processing of a local solution that replaced the set. -/
def Event.replaces : Event n → Bool
  | .processed _ .newBest => true
  | _ => false

/-- The event is the processing of a local solution that changed the set. -/
def Event.changes : Event n → Bool
  | .processed _ .first => true
  | .processed _ .newBest => true
  | .processed _ .added => true
  | _ => false

/-- Local solutions that changed the solution set. -/
def nChanged (t : List (Event n)) : Nat := t.countP Event.changes

/-- The improved local calls of the final observer. -/
def shownImproved (r : RunResult n) : Option Nat := (r.final.opt.obs.bind Obs.getStage2).map Stage2.improvedCalls

/-- C55 fails for the improved local calls: in this run stage 1 finds the first solution, a stage-2 search
replaces it by a better one, and no improved local call is shown. -/
theorem C55_improved_violated : Built watched ∧ succeeds (run (env slope) watched none) = true ∧
    nChanged (run (env slope) watched none).final.trace = 2 ∧
    shownImproved (run (env slope) watched none) = some 0 :=
  ⟨Built.observer _ (Built.parallel _ (mk_built flat_ok)), by decide +kernel, by decide +kernel,
    by decide +kernel⟩

theorem ret_replaces (t : List (Event n)) : nRet t + t.countP Event.replaces = nChanged t := by
  unfold nChanged
  induction t with
  | nil => rfl
  | cons e t ih =>
    rw [show e :: t = [e] ++ t from rfl, nRet_append, List.countP_append, List.countP_append, ← ih]
    have : nRet [e] + [e].countP Event.replaces = [e].countP Event.changes := by
      cases e with
      | processed s v => cases v <;> rfl
      | _ => rfl
    omega

/-- C55 (partial), improved local calls: after a successful run the observer shows, for stage 2 (the part `t2` of
the history that begins after the local search of stage 1 was processed), the processed local solutions that were
added to the set without replacing it.  The full property asks for all `nChanged t2` that changed the set; those
that replaced it as a new best are missing (`C55_improved_violated`). -/
theorem C55_improved_partial {env : Env n} {o : Opt n} {loaded : Option (Except CkErr (Ckpt n))} {b : Obs n}
    {s : Stage2 n} {set : List (Sol n)} (ht : Tame env) (hw : Watches2 o b s) (hfr : Fresh o loaded)
    (hr : (run env o loaded).result = .ok set) :
    ∃ t1 t2 b' s', (run env o loaded).final.trace = t1 ++ t2 ∧ nSearch t1 = 0 ∧ nProc t1 = 1 ∧
      (run env o loaded).final.opt.obs = some b' ∧ b'.stage2 = some s' ∧
      s'.improvedCalls + t2.countP Event.replaces = s.improvedCalls + nChanged t2 := by
  obtain ⟨t1, t2, h1, h2, _⟩ := C55_processed ht hw hfr hr
  obtain ⟨h3, h4, b', s', h5, h6, _, h7, _⟩ := h2
  exact ⟨t1, t2, b', s', h3, h4, h1, h5, h6, by rw [h7, ← ret_replaces]; omega⟩

/-! ### Stage 1 -/

theorem scatter_evals {env : Env n} {o : Opt n} {r : Scatter.Result n} (h : Act.scatter env o = .ok r) :
    r.initLen ≤ r.evals := by
  unfold Act.scatter at h
  split at h
  · cases h
  dsimp only at h
  split at h
  · cases h
  rename_i hr
  cases h
  unfold Scatter.run at hr
  (repeat' split at hr) <;> cases hr
  exact Nat.le_add_right _ _

/-- C56 (partial): the evaluations shown for stage 1 at the end of a run that succeeds are those of the
initial reference set and those reported by the local search.  The full property asks for all evaluations
of the scatter search, `r.evals` of them; those of its trial points are missing (`C56_violated`), so the
number shown is too small and right only if no trial point was evaluated. -/
theorem C56_initial_partial {env : Env n} {o : Opt n} {loaded : Option (Except CkErr (Ckpt n))} {b : Obs n}
    {s : Stage1 n} {set : List (Sol n)} (ht : Tame env) (ho : o.obs = some b) (hm : b.mode ≠ .stage2Only)
    (hs : b.stage1 = some s) (hfr : Fresh o loaded) (hr : (run env o loaded).result = .ok set) :
    ∃ r b' s', Act.scatter env o = .ok r ∧ .scatter r.evals ∈ (run env o loaded).final.trace ∧
      (run env o loaded).final.opt.obs = some b' ∧ b'.getStage1Final = some s' ∧
      s'.functionEvaluations = s.functionEvaluations + r.initLen + solverEvals env o r.best ∧
      r.initLen ≤ r.evals := by
  rw [run_fresh env o loaded hfr] at hr ⊢
  obtain ⟨hset, hnf⟩ := finish_ok hr
  rw [finish_final]
  obtain ⟨b1, e1, e2, e3, e4, e5, e6⟩ := started_obs env o b ho
  obtain ⟨s1, q1, q2⟩ := e6 s (by unfold Obs.seen1; rw [if_neg hm]; exact hs)
  obtain ⟨r, m4, hsc, hmem, hF, hcase⟩ := body_fresh_tally ht ⟨started env o, 0, 0, []⟩ hnf
  have hsc : Act.scatter env o = .ok r := hsc
  obtain ⟨hcfg, ⟨t, htr, hz1, hz2, hz3, _⟩, hobs⟩ := hF
  obtain ⟨b4, f1, f2, f3, f4, f5⟩ := hobs b1 e1
  obtain ⟨s4, g1, g2⟩ := f5 s1 q1
  have hfin : s4.functionEvaluations = s.functionEvaluations + r.initLen + solverEvals env o r.best := by
    rw [g2, q2, Nat.add_assoc]; rfl
  have hm4 : b4.mode ≠ .stage2Only := by rw [f2, e2]; exact hm
  have hs4 : b4.stage1 = some s4 := by
    unfold Obs.seen1 at g1
    rw [if_neg hm4] at g1; exact g1
  rcases hcase with hcase | ⟨ref, objs, sd, hcase⟩
  · rw [hcase]
    exact ⟨r, b4, s4, hsc, hmem, f1, hs4, hfin, scatter_evals hsc⟩
  · rw [hcase]
    obtain ⟨b5, h1, h2, h3⟩ := keep1_start2 env { m4 with uc := 0 } b4 f1
    have h1 : (enter2 env sd m4).opt.obs = some b5 := h1
    have hk := (keep1Track ht).main false 0 ref objs (enter2 env sd m4) (fun h => by cases h)
    obtain ⟨b6, k1, k2, k3⟩ := hk b5 h1
    have hreach := (callsTrack ht).main false 0 ref objs (enter2 env sd m4)
      (fun _ => by rw [hcase] at hnf; exact hnf)
    obtain ⟨_, u, hu, _⟩ := hreach
    refine ⟨r, b6, s4, hsc, ?_, k1, ?_, hfin, scatter_evals hsc⟩
    · rw [hu]
      exact List.mem_append_left _ (show _ ∈ m4.trace from hmem)
    · exact (k3.trans h3).trans hs4

/-- The spotty problem with an observer. -/
def spottyWatched : Opt 1 := (spottyOpt.setParallel false).addObserver watcher

/-- Shown evaluations of stage 1. -/
def shownEvals (r : RunResult n) : Option Nat :=
  (r.final.opt.obs.bind Obs.getStage1Final).map Stage1.functionEvaluations

/-- Evaluations of the scatter search. -/
def scatterEvals (t : List (Event n)) : List Nat := t.filterMap fun e => match e with
  | .scatter k => some k
  | _ => none

/-- C56 fails: the scatter search makes seven evaluations and the local search one, but five are shown. -/
theorem C56_violated : Built spottyWatched ∧
    succeeds (run spottyEnv spottyWatched none) = true ∧
    scatterEvals (run spottyEnv spottyWatched none).final.trace = [7] ∧
    (∀ p, solverEvals spottyEnv spottyWatched p = 1) ∧
    shownEvals (run spottyEnv spottyWatched none) = some 5 :=
  ⟨Built.observer _ (Built.parallel _ (mk_built spotty_ok)), by decide +kernel, by decide +kernel,
    fun _ => rfl, by decide +kernel⟩

example : Tame spottyEnv ∧ spottyWatched.obs = some watcher ∧ watcher.mode ≠ .stage2Only ∧
    watcher.stage1 = some Stage1.new ∧ Fresh spottyWatched none :=
  ⟨fun _ _ b => ⟨b.prev, rfl⟩, rfl, by decide, rfl, Or.inl rfl⟩

/-! ### Mode -/

theorem restricted_upd (f : Stage1 n → Stage1 n) (m : M n) :
    Restricted m (Act.modify (fun o => o.mapObs fun b => b.upd1 f) m).1 :=
  restricted_upd1 m fun _ => f

theorem restricted_seq {a b : Act n} (ha : ∀ m, Restricted m (a m).1) (hb : ∀ m, Restricted m (b m).1)
    (m : M n) : Restricted m ((a ;; b) m).1 := by
  rw [Act.seq_def]
  split
  · exact (ha m).trans (hb _)
  · exact ha m

theorem restricted_scatter {env : Env n} (ht : Tame env) (r : Scatter.Result n) (m : M n) :
    Restricted m (Act.obsScatter env r m).1 :=
  restricted_seq (restricted_upd _) (restricted_seq (restricted_inv ht 1)
    (restricted_seq (restricted_upd _) (restricted_seq (restricted_inv ht 2)
      (restricted_seq (restricted_upd _) (restricted_inv ht 3))))) m

theorem restricted_done {env : Env n} (ht : Tame env) (ref : List (Pt n)) (objs : List F64) (m : M n) :
    Restricted m (Act.obsScatterDone env ref objs m).1 :=
  restricted_seq (restricted_upd _) (restricted_seq (restricted_inv ht 4)
    (restricted_upd _)) m

theorem restricted_end1 {env : Env n} (ht : Tame env) (m : M n) : Restricted m (Act.obsEnd1 env m).1 :=
  restricted_seq (restricted_upd _) (restricted_seq (restricted_inv ht 7)
    (fun m => restricted_obs m _ Obs.markStage1Complete rfl fun _ => ⟨rfl, fun _ => rfl, fun _ => rfl⟩)) m

theorem restricted_local1 {env : Env n} (ht : Tame env) (p : Pt n) (ref : List (Pt n)) (m : M n) :
    Restricted m (Act.stage1Local env p ref m).1 := by
  unfold Act.stage1Local
  split
  · exact restricted_id m _ rfl
  · rename_i s k _
    refine (restricted_id m { m with trace := m.trace ++ [.search none p (.ok s)] } rfl).trans
      (restricted_seq (fun m => restricted_id m _ rfl) (restricted_seq
        (restricted_seq (restricted_upd _) (restricted_inv ht 6)) fun m => ?_) _)
    unfold Act.process
    dsimp only
    have h1 := restricted_process m
      { m with opt := (m.opt.process s).1, trace := m.trace ++ [.processed s (m.opt.process s).2] } s rfl
    split
    · exact h1
    · refine h1.trans ?_
      split
      · exact restricted_seq (restricted_end1 ht) (fun m => restricted_id m _ rfl) _
      · exact restricted_seq (fun m => restricted_id m _ rfl) (restricted_end1 ht) _

theorem restricted_stage2 {env : Env n} (ht : Tame env) (r : Bool) (ref : List (Pt n))
    (objs : Option (List F64)) (m : M n) : Restricted m (Act.stage2 env r ref objs m).1 := by
  unfold Act.stage2
  refine restricted_seq (fun m => restricted_obs m _ _ rfl fun b => ?_) (fun m => ?_) m
  · exact keep_upd2 b _
  · split
    · exact (restrictedTrack ht).main _ _ _ _ m (fun h => by cases h)
    · split
      · exact restricted_id m m rfl
      · exact restricted_seq (fun m => restricted_id m _ rfl)
          (fun m => (restrictedTrack ht).main _ _ _ _ m (fun h => by cases h)) m

theorem restricted_body {env : Env n} (ht : Tame env) (r : Bool) (m : M n) :
    Restricted m (Act.body env r m).1 := by
  unfold Act.body
  split
  · exact (restricted_id m { m with uc := m.opt.unchanged } rfl).trans (restricted_stage2 ht _ _ _ _)
  · unfold Act.stage1
    split
    · exact restricted_id m m rfl
    · dsimp only
      refine restricted_seq (fun m => restricted_id m _ rfl) (restricted_seq ?_ (restricted_seq
        (restricted_done ht _ _) (restricted_seq (restricted_local1 ht _ _) (restricted_seq
          (fun m => restricted_id m _ rfl) (restricted_stage2 ht _ _ _))))) m
      intro m'
      split
      · exact restricted_scatter ht _ m'
      · exact restricted_id m' _ rfl

/-- C59 (partial): whatever the outcome of the run, an observer in mode `Stage2Only` keeps the stage-1
numbers it had, and one in mode `Stage1Only` keeps all stage-2 numbers except the last added point.  The
full property includes that point, see `C59_violated`. -/
theorem C59_mode_partial {env : Env n} (o : Opt n) (loaded : Option (Except CkErr (Ckpt n))) {b : Obs n}
    (ht : Tame env) (ho : o.obs = some b) :
    ∃ b', (run env o loaded).final.opt.obs = some b' ∧ b'.mode = b.mode ∧
      (b.mode = .stage2Only → b'.stage1 = b.stage1) ∧
      (b.mode = .stage1Only → b'.stage2.map Stage2.strip = b.stage2.map Stage2.strip) := by
  have h0 : Restricted (⟨o, 0, 0, []⟩ : M n) ⟨started env o, 0, 0, []⟩ := by
    refine restricted_obs _ _ _ rfl fun b => ?_
    have ht : ∃ x, b.startTimer (env.time 0) = { b with startTime := x } := by
      unfold Obs.startTimer
      split
      · exact ⟨_, rfl⟩
      · exact ⟨b.startTime, rfl⟩
    obtain ⟨x, hx⟩ := ht
    rw [hx]
    exact keep_upd1 ({ b with startTime := x } : Obs n) _
  suffices h : Restricted (⟨o, 0, 0, []⟩ : M n) (run env o loaded).final by
    obtain ⟨b', h1, h2, h3, h4⟩ := h b ho
    exact ⟨b', h1, h2, h4, h3⟩
  unfold run
  have h1 : (Act.obsStart env ⟨o, 0, 0, []⟩).1 = (⟨started env o, 0, 0, []⟩ : M n) := rfl
  dsimp only
  rw [h1]
  cases hl : (started env o).tryResume loaded with
  | error e => exact h0
  | ok q =>
    obtain ⟨o1, r⟩ := q
    have hobs : o1.obs = (started env o).obs := by
      unfold Opt.tryResume at hl
      (repeat' split at hl) <;> cases hl <;> rfl
    have h2 : Restricted (⟨o, 0, 0, []⟩ : M n) ⟨o1, 0, 0, []⟩ :=
      h0.trans (restricted_id _ _ hobs)
    have h3 := h2.trans (restricted_body ht r ⟨o1, 0, 0, []⟩)
    dsimp only
    split
    · rename_i m e he
      rw [he] at h3; exact h3
    · rename_i m _ _ he
      rw [he] at h3
      split <;> exact h3

/-- An optimizer whose observer is restricted to stage 1. -/
def watched1 : Opt 1 := (flatOpt.setParallel false).addObserver (watcher.withMode .stage1Only)

/-- C59 fails: an observer in mode `Stage1Only` is told about a point added in stage 2, and shows it. -/
theorem C59_violated : Built watched1 ∧ (watched1.obs.map Obs.mode) = some .stage1Only ∧
    succeeds (run (env slope) watched1 none) = true ∧
    ((run (env slope) watched1 none).final.opt.obs.bind Obs.getStage2).bind Stage2.lastAdded ≠ none :=
  ⟨Built.observer _ (Built.parallel _ (mk_built flat_ok)), rfl, by decide +kernel, by decide +kernel⟩

end GS.Props
