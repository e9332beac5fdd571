/- C55, C84 in every mode: what the observer shows about the local searches and evaluations of stage 2. -/
import Verif.Lemmas.Owed
import Verif.Props.EndToEnd
import Verif.Props.EveryMode

namespace GS.Props
open GS GS.Runner F64 Witness
variable {n : Nat}

/-- What the observer shows about stage 2, compared with its numbers before the run and the events of the
run: at most the local searches and evaluations made, and exactly those unless the target was reached. -/
structure CountsWork (env : Env n) (ty : SolverType) (cfg : SolverConfig) (s s' : Stage2 n)
    (tr : List (Event n)) (reached : Prop) : Prop where
  calls_le : s'.localCalls ≤ s.localCalls + nSearch tr
  evals_le : s'.functionEvaluations ≤ s.functionEvaluations + evalsOf env ty cfg tr
  calls : ¬ reached → s'.localCalls = s.localCalls + nSearch tr
  evals : ¬ reached → s'.functionEvaluations = s.functionEvaluations + evalsOf env ty cfg tr

/-- Stage 2 from the state `m1` on. -/
theorem counts_main {env : Env n} (ht : Tame env) {s1 : Stage2 n} {m1 : M n} {r : Bool} {st : Nat}
    {ref : List (Pt n)} {objs : Option (List F64)} {ty : SolverType} {cfg : SolverConfig}
    (hs : m1.seen2 = some s1) (ho : OneSolver ty cfg m1.opt)
    (hf : ∀ e, (Act.stage2Main env r st ref objs m1).2 ≠ .fail e) :
    ∃ t2 b' s', (Act.stage2Main env r st ref objs m1).1.trace = m1.trace ++ t2 ∧
      (Act.stage2Main env r st ref objs m1).1.opt.obs = some b' ∧ b'.stage2 = some s' ∧
      CountsWork env ty cfg s1 s' t2
        ((Act.stage2Main env r st ref objs m1).1.opt.targetReached = true) := by
  obtain ⟨_, t, htr, hC⟩ := (callsTrack ht).main r st ref objs m1 (fun _ => hf)
  obtain ⟨s3, q1, q2, _⟩ := hC s1 hs
  obtain ⟨d, c, h1, h2, ⟨_, u, hu, hn, hE⟩, h4⟩ := owed_main ht ho hf
  obtain ⟨s', g1, g2⟩ := hE s1 hs
  have : u = t := List.append_cancel_left (hu.symm.trans htr)
  subst this
  rw [q1] at g1
  cases g1
  unfold M.seen2 at q1
  cases hob : (Act.stage2Main env r st ref objs m1).1.opt.obs with
  | none => rw [hob] at q1; cases q1
  | some b' =>
    rw [hob] at q1
    refine ⟨u, b', s3, htr, rfl, of_seen2 q1, by omega, by omega, fun hr => ?_, fun hr => ?_⟩
    · have := h4 (by simpa using hr)
      omega
    · have := h4 (by simpa using hr)
      omega

/-- C55, any mode: at the end of a run that starts with stage 1 and succeeds, the observer shows at most one
more local call for every stage-2 local search and at most as many more objective evaluations as stage 2 and its
local searches made; if the target was not reached, exactly as many. -/
theorem C55_every_mode {env : Env n} {o : Opt n} {loaded : Option (Except CkErr (Ckpt n))} {b : Obs n}
    {s : Stage2 n} {set : List (Sol n)} (ht : Tame env) (hb : Built o) (hw : Watches2 o b s)
    (hfr : Fresh o loaded) (hr : (run env o loaded).result = .ok set) :
    ∃ b' s', (run env o loaded).final.opt.obs = some b' ∧ b'.stage2 = some s' ∧
      CountsWork env o.params.solverType o.params.solverConfig s s' (run env o loaded).final.trace
        (TargetMet o (run env o loaded).final.trace) := by
  obtain ⟨_, _, h3⟩ := freshAll (env := env) hb hfr
  have hne : (started env o).solset ≠ some [] := by
    show o.solset ≠ some []
    rw [hb.unused.solset]; simp
  rw [run_fresh env o loaded hfr, finish_final] at *
  have hnf := (finish_ok hr).2
  have htm : (Act.body env false ⟨started env o, 0, 0, []⟩).1.opt.targetReached = true ↔ TargetMet o
      (Act.body env false ⟨started env o, 0, 0, []⟩).1.trace := by
    obtain ⟨_, _, _, _, hi, _⟩ := h3.inv hnf
    exact (targetReached_iff (hi.hist hne)).trans Iff.rfl
  rw [← htm]
  obtain ⟨b1, e1, e2, e3, e4, _⟩ := started_obs env o b hw.obs
  obtain ⟨r, m4, _, _, hF, hcase⟩ := body_fresh_tally ht ⟨started env o, 0, 0, []⟩ hnf
  obtain ⟨hcfg, ⟨t, htr, hz1, hz2, hz3, _⟩, hobs⟩ := hF
  obtain ⟨b4, f1, f2, f3, f4, _⟩ := hobs b1 e1
  obtain ⟨s4, g1, g2, g3, g4⟩ := strip_some f4 (e3.trans hw.stage2)
  have htr : m4.trace = t := htr
  rcases hcase with hcase | ⟨ref, objs, sd, hcase⟩
  · rw [hcase]
    refine ⟨b4, s4, f1, g1, ?_, ?_, fun _ => ?_, fun _ => ?_⟩
    · rw [htr, hz1, g2]; exact Nat.le_refl _
    · rw [htr, hz3, g4]; exact Nat.le_refl _
    · rw [htr, hz1, g2]; rfl
    · rw [htr, hz3, g4]; rfl
  · rw [hcase] at hnf ⊢
    have hsm : M.seen2 { m4 with uc := 0 } = some s4 := by
      unfold M.seen2
      dsimp only
      rw [f1]
      exact seen2_of (by rw [f2, e2]; exact hw.mode) g1
    obtain ⟨s5, k1, k2, k3, k4, k5⟩ := start2_seen env { m4 with uc := 0 } s4 hsm
    have hm5 : (enter2 env sd m4).trace = t := htr
    have hcfg5 : SameCfg (started env o) (enter2 env sd m4).opt := by
      refine hcfg.trans (SameCfg.trans (start2_cfg env { m4 with uc := 0 }).1 ?_)
      constructor <;> rfl
    have hos : OneSolver o.params.solverType o.params.solverConfig (started env o) :=
      ⟨hb.unused.lsType, hb.unused.lsConfig, rfl, rfl⟩
    obtain ⟨u, b', s', u1, u2, u3, u4⟩ := counts_main ht (m1 := enter2 env sd m4) (r := false)
      (st := 0) (ref := ref) (objs := objs) k1 (hos.same hcfg5) hnf
    refine ⟨b', s', u2, u3, ?_⟩
    have c1 : nSearch (Act.stage2Main env false 0 ref objs (enter2 env sd m4)).1.trace = nSearch u := by
      rw [u1, nSearch_append, hm5, hz1, Nat.zero_add]
    have c2 : evalsOf env o.params.solverType o.params.solverConfig
        (Act.stage2Main env false 0 ref objs (enter2 env sd m4)).1.trace =
        evalsOf env o.params.solverType o.params.solverConfig u := by
      rw [u1, evalsOf_append, hm5, hz3, Nat.zero_add]
    have c3 : s5.localCalls = s.localCalls := k2.trans g2
    have c4 : s5.functionEvaluations = s.functionEvaluations := k4.trans g4
    refine ⟨?_, ?_, fun h => ?_, fun h => ?_⟩
    · rw [c1, ← c3]; exact u4.calls_le
    · rw [c2, ← c4]; exact u4.evals_le
    · rw [c1, ← c3]; exact u4.calls h
    · rw [c2, ← c4]; exact u4.evals h

/-- C55, any mode, for a run that resumes from a checkpoint of the same local solver. -/
theorem C55_every_mode_resumed {env : Env n} {o : Opt n} {loaded : Option (Except CkErr (Ckpt n))}
    {c : Ckpt n} {b : Obs n} {s : Stage2 n} {set : List (Sol n)} (ht : Tame env) (hw : Watches2 o b s)
    (hrs : Resumes o loaded c) (hty : o.lsType = c.params.solverType) (hcf : o.lsConfig = c.params.solverConfig)
    (hr : (run env o loaded).result = .ok set) :
    ∃ b' s', (run env o loaded).final.opt.obs = some b' ∧ b'.stage2 = some s' ∧
      CountsWork env o.lsType o.lsConfig s s' (run env o loaded).final.trace
        ((run env o loaded).final.opt.targetReached = true) := by
  rw [run_resumes env o loaded hrs] at hr ⊢
  obtain ⟨hset, hnf⟩ := finish_ok hr
  rw [finish_final]
  obtain ⟨b1, e1, e2, e3, e4, _⟩ := started_obs env o b hw.obs
  unfold Act.body at hnf ⊢
  simp only [if_true] at hnf ⊢
  unfold Act.stage2 at hnf ⊢
  rw [Act.seq_def, show (Act.obsStart2 (n := n) env _).2 = .cont from rfl, if_pos rfl] at hnf ⊢
  simp only [if_true] at hnf ⊢
  obtain ⟨s5, k1, k2, k3, k4, k5⟩ := start2_seen env
    { (⟨(started env o).restore c, 0, 0, []⟩ : M n) with uc := ((started env o).restore c).unchanged } s
    (by
      unfold M.seen2
      show (started env o).obs.bind Obs.seen2 = some s
      rw [e1]
      exact seen2_of (by rw [e2]; exact hw.mode) (e3.trans hw.stage2))
  have hos : OneSolver o.lsType o.lsConfig ((started env o).restore c) := ⟨rfl, rfl, hty.symm, hcf.symm⟩
  obtain ⟨u, b', s', u1, u2, u3, u4⟩ := counts_main ht k1 (hos.same (start2_cfg env
    { (⟨(started env o).restore c, 0, 0, []⟩ : M n) with uc := ((started env o).restore c).unchanged }).1) hnf
  refine ⟨b', s', u2, u3, ?_⟩
  rw [u1, show (Act.obsStart2 env { (⟨(started env o).restore c, 0, 0, []⟩ : M n) with
    uc := ((started env o).restore c).unchanged }).1.trace = [] from rfl, List.nil_append]
  refine ⟨?_, ?_, fun h => ?_, fun h => ?_⟩
  · rw [← k2]; exact u4.calls_le
  · rw [← k4]; exact u4.evals_le
  · rw [← k2]; exact u4.calls h
  · rw [← k4]; exact u4.evals h

/-! ### C84: from the shown numbers to the calls of the user's objective -/

/-- C84, any mode: after a successful run the objective evaluations shown for stage 2 are at most the calls of
the user's objective made by stage 2 and its local searches, and exactly those if the target was not
reached. -/
theorem C84_every_mode {env : Env n} {o : Opt n} {loaded : Option (Except CkErr (Ckpt n))} {b : Obs n}
    {s : Stage2 n} {set : List (Sol n)} {lib : Lib} {q : Prob} (ht : Tame env) (hw : Watches2 o b s)
    (hfr : Fresh o loaded) (hc : Completes env o.params.iterations) (hb : Built o) (hu : Uses env lib q)
    (hr : (run env o loaded).result = .ok set) :
    ∃ b' s', (run env o loaded).final.opt.obs = some b' ∧ b'.stage2 = some s' ∧
      s'.functionEvaluations ≤ s.functionEvaluations + objectiveCalls ((run env o loaded).final.trace.flatMap
        (asked lib q o.params.solverType o.params.solverConfig)) ∧
      (¬ TargetMet o (run env o loaded).final.trace →
        s'.functionEvaluations = s.functionEvaluations + objectiveCalls ((run env o loaded).final.trace.flatMap
          (asked lib q o.params.solverType o.params.solverConfig))) := by
  obtain ⟨b', s', h1, h2, h3⟩ := C55_every_mode ht hb hw hfr hr
  have hgen : ∀ e ∈ (run env o loaded).final.trace, e.Genuine env o := by
    rw [run_fresh env o loaded hfr, finish_final]
    exact (Steps.body env false ⟨started env o, 0, 0, []⟩).genuine
  have hok := ((C31_errors_partial hfr hc).2 set hr).2
  have he := evals_asked hb hu _ hgen hok
  exact ⟨b', s', h1, h2, he ▸ h3.evals_le, fun h => he ▸ h3.evals h⟩

/-- The stage-2 numbers an optimizer's observer shows. -/
def shown2 (o : Opt n) : Option (Nat × Nat) :=
  (o.obs.bind Obs.getStage2).map fun s => (s.localCalls, s.functionEvaluations)

/-- Equality is lost when the target is reached in the middle of a batch: two local searches with the
same number of evaluations were made, one call and half of the evaluations are shown. -/
theorem C55_lost_at_target :
    nSearch (run (env jump) ((demo.setTarget (F64.lit 1 2)).addObserver watcher) none).final.trace = 2 ∧
    shown2 (run (env jump) ((demo.setTarget (F64.lit 1 2)).addObserver watcher) none).final.opt =
      some (1, evalsOf (env jump) demo.params.solverType demo.params.solverConfig
        (run (env jump) ((demo.setTarget (F64.lit 1 2)).addObserver watcher) none).final.trace / 2) ∧
    0 < evalsOf (env jump) demo.params.solverType demo.params.solverConfig
        (run (env jump) ((demo.setTarget (F64.lit 1 2)).addObserver watcher) none).final.trace := by
  decide +kernel

/-- Without a target, parallel searches are all counted: the hypotheses of the theorems above are met. -/
example : Tame (env jump) ∧ Built (demo.addObserver watcher) ∧
    Watches2 (demo.addObserver watcher) watcher Stage2.new ∧ Fresh (demo.addObserver watcher) none ∧
    (demo.addObserver watcher).par = true ∧
    succeeds (run (env jump) (demo.addObserver watcher) none) = true ∧
    1 < nSearch (run (env jump) (demo.addObserver watcher) none).final.trace :=
  ⟨env_tame _, Built.observer _ demo_built, ⟨rfl, by decide, rfl, rfl⟩, Or.inl rfl, by decide +kernel,
    by decide +kernel, by decide +kernel⟩

/-- Resumed parallel runs: every checkpoint of this run can be resumed by the same optimizer. -/
example : savedIn (run wideEnv wideSaving none).final.trace ≠ [] ∧
    ∀ c ∈ savedIn (run wideEnv wideSaving none).final.trace,
      Resumes (wideSaving.addObserver watcher) (some (.ok c)) c ∧
        (wideSaving.lsType = c.params.solverType ∧
          succeeds (run wideEnv (wideSaving.addObserver watcher) (some (.ok c))) = true ∧
          (run wideEnv (wideSaving.addObserver watcher) (some (.ok c))).final.opt.targetReached = false) :=
  ⟨by decide +kernel, fun c hc => ⟨⟨rfl, _, rfl, rfl⟩, by revert c; decide +kernel⟩⟩

example : Tame idleEnv ∧ Built (demo.addObserver watcher) ∧
    Watches2 (demo.addObserver watcher) watcher Stage2.new ∧
    (demo.addObserver watcher).par = true ∧
    Completes idleEnv (demo.addObserver watcher).params.iterations ∧ Uses idleEnv idleLib linProb ∧
    succeeds (run idleEnv (demo.addObserver watcher) none) = true :=
  ⟨env_tame _, Built.observer _ demo_built, ⟨rfl, by decide, rfl, rfl⟩, by decide +kernel,
    env_completes _ (by decide +kernel), rfl, by decide +kernel⟩

end GS.Props
