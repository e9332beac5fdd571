/- C115: progress bars. -/
import Verif.Lemmas.Progress
import Verif.Props.Resume
import Verif.Props.Outcome

namespace GS.Props
open GS GS.Witness
variable {n : Nat}

/-! ### C115: progress bars -/

/-- As long as the terminal can be written, a run with progress bars does what a run without them does: same result, same
final state, same events. What is missing is a terminal that cannot be written: `C115_write_violated`. -/
theorem C115_harmless_partial (env : Env n) (scr1 scr2 : Screen) (o : Opt n) (loaded : Option (Except CkErr (Ckpt n)))
    (h1 : ∀ i, scr1 i = true) (h2 : ∀ i, scr2 i = true) :
    (runBars env scr1 scr2 o loaded).1 = run env o loaded := by
  unfold runBars run
  dsimp only
  cases (Act.obsStart env ⟨o, 0, 0, []⟩).1.opt.tryResume loaded with
  | error e => rfl
  | ok x =>
    dsimp only
    have h := BAct.Same.body (env := env) h1 h2 x.2
      ({ (Act.obsStart env ⟨o, 0, 0, []⟩).1 with opt := x.1 }, ⟨none, none⟩)
    cases hb : BAct.body env scr1 scr2 x.2
        ({ (Act.obsStart env ⟨o, 0, 0, []⟩).1 with opt := x.1 }, ⟨none, none⟩) with
    | mk t out =>
      rw [hb] at h
      cases ha : Act.body env x.2 { (Act.obsStart env ⟨o, 0, 0, []⟩).1 with opt := x.1 } with
      | mk m out' =>
        rw [ha] at h
        obtain ⟨e1, e2⟩ := h
        dsimp only at e1 e2
        subst e1
        subst e2
        cases out with
        | fail e => rfl
        | cont =>
          dsimp only
          cases t.1.opt.solset <;> rfl
        | stop =>
          dsimp only
          cases t.1.opt.solset <;> rfl

/-- The end of `run` leaves the bars. -/
def endBars (r : (M n × Bars) × Out) : RunResult n × Bars :=
  match r with
  | ((m, b), .fail e) => (⟨m, .error e⟩, b)
  | ((m, b), _) =>
    match m.opt.solset with
    | some set => (⟨m, .ok set⟩, b)
    | none => (⟨m, .error (.noFeasibleSolution 0)⟩, b)

theorem endBars_snd (r : (M n × Bars) × Out) : (endBars r).2 = r.1.2 := by
  unfold endBars
  rcases r with ⟨⟨m, b⟩, out⟩
  cases out with
  | fail e => rfl
  | cont => dsimp only; cases m.opt.solset <;> rfl
  | stop => dsimp only; cases m.opt.solset <;> rfl

theorem runBars_fresh (env : Env n) (scr1 scr2 : Screen) (o : Opt n) (loaded : Option (Except CkErr (Ckpt n)))
    (h : Fresh o loaded) : (runBars env scr1 scr2 o loaded).2 =
      (BAct.stage1 env scr1 scr2 (⟨started env o, 0, 0, []⟩, ⟨none, none⟩)).1.2 := by
  have h2 : (started env o).tryResume loaded = .ok (started env o, false) := by
    unfold Opt.tryResume
    rcases h with rfl | h
    · split
      · rfl
      · split <;> rfl
    · have hc : (started env o).ckpt = o.ckpt := rfl
      rw [hc]
      cases hk : o.ckpt with
      | none => rfl
      | some c =>
        dsimp only
        rw [h c hk]
        rfl
  have : runBars env scr1 scr2 o loaded =
      endBars (BAct.stage1 env scr1 scr2 (⟨started env o, 0, 0, []⟩, ⟨none, none⟩)) := by
    unfold runBars
    dsimp only
    rw [show (Act.obsStart env ⟨o, 0, 0, []⟩).1 = (⟨started env o, 0, 0, []⟩ : M n) from rfl]
    dsimp only
    rw [h2]
    rfl
  rw [this, endBars_snd]

theorem runBars_resumes (env : Env n) (scr1 scr2 : Screen) (o : Opt n) (loaded : Option (Except CkErr (Ckpt n)))
    {c : Ckpt n} (h : Resumes o loaded c) : (runBars env scr1 scr2 o loaded).2 =
      (BAct.body env scr1 scr2 true (⟨(started env o).restore c, 0, 0, []⟩, ⟨none, none⟩)).1.2 := by
  obtain ⟨rfl, cfg, hc, ha⟩ := h
  have h2 : (started env o).tryResume (some (.ok c)) = .ok ((started env o).restore c, true) := by
    unfold Opt.tryResume
    have hk : (started env o).ckpt = o.ckpt := rfl
    rw [hk, hc]
    dsimp only
    rw [ha]
    rfl
  have : runBars env scr1 scr2 o (some (.ok c)) =
      endBars (BAct.body env scr1 scr2 true (⟨(started env o).restore c, 0, 0, []⟩, ⟨none, none⟩)) := by
    unfold runBars
    dsimp only
    rw [show (Act.obsStart env ⟨o, 0, 0, []⟩).1 = (⟨started env o, 0, 0, []⟩ : M n) from rfl]
    dsimp only
    rw [h2]
    rfl
  rw [this, endBars_snd]

theorem shows_ok {rt : Rt n} {sched : Sched} {s : Scatter n} {r : Scatter.Result n} (h : s.run rt sched = .ok r) :
    s.shows rt sched = ⟨3, 5, "Stage 1, found best solution"⟩ := by
  unfold Scatter.shows
  cases hi : s.init rt sched with
  | error e => unfold Scatter.run at h; rw [hi] at h; cases h
  | ok s1 =>
    dsimp only
    cases ht : s1.trialPoints rt with
    | none => unfold Scatter.run at h; rw [hi] at h; dsimp only at h; rw [ht] at h; cases h
    | some x => dsimp only; rw [h]

theorem shows_error {rt : Rt n} {sched : Sched} {s : Scatter n} {e : ScatterErr} (h : s.run rt sched = .error e) :
    s.shows rt sched = ⟨3, 1, "Stage 1, initialized reference set"⟩ ∨
    s.shows rt sched = ⟨3, 3, "Stage 1, initialized and diversified"⟩ ∨
    s.shows rt sched = ⟨3, 4, "Stage 1, generated trial points"⟩ := by
  unfold Scatter.shows
  cases hi : s.init rt sched with
  | error e => exact .inl rfl
  | ok s1 =>
    dsimp only
    cases ht : s1.trialPoints rt with
    | none => exact .inr (.inl rfl)
    | some x => dsimp only; rw [h]; exact .inr (.inr rfl)

/-- The bars of a run from scratch, as stage 1 leaves them. -/
theorem stage1_bars {env : Env n} {scr1 scr2 : Screen} (h1 : scr1.Works) (h2 : scr2.Works) (t : M n × Bars)
    (ht : t.2 = ⟨none, none⟩) :
    (∃ e, Act.scatter env t.1.opt = .error (.scatterNew e) ∧
      (BAct.stage1 env scr1 scr2 t).1.2 = ⟨none, none⟩) ∨
    (∃ s : Scatter n, ∃ e, s.run env.rt env.sched = .error e ∧ Act.scatter env t.1.opt = .error (.scatterRun e) ∧
      (BAct.stage1 env scr1 scr2 t).1.2 = ⟨some (s.shows env.rt env.sched), none⟩) ∨
    ∃ s : Scatter n, ∃ r, s.run env.rt env.sched = .ok r ∧ Act.scatter env t.1.opt = .ok r ∧
      (BAct.stage1 env scr1 scr2 t).1.2 = ⟨some (s.shows env.rt env.sched),
        if (Act.afterScatter env t.1.opt r t.1).2 = .cont then some ⟨t.1.opt.params.iterations, 0, "Stage 2"⟩
        else none⟩ := by
  obtain ⟨hs, hb, hn⟩ := BAct.scatter_works (env := env) h1 t.1.opt
  unfold BAct.stage1
  cases hx : BAct.scatter env scr1 t.1.opt with
  | mk b r =>
    rw [hx] at hs hb hn
    dsimp only at hs hb hn
    cases r with
    | error e =>
      dsimp only
      rw [ht]
      rcases hb with rfl | ⟨s, rfl, _, hE⟩
      · obtain ⟨e', he⟩ := hn rfl
        exact .inl ⟨e', he, rfl⟩
      · obtain ⟨x, rfl, hr⟩ := (hE e).mp hs.symm
        exact .inr (.inl ⟨s, x, hr, hs.symm, rfl⟩)
    | ok r =>
      dsimp only
      rcases hb with rfl | ⟨s, rfl, hO, _⟩
      · obtain ⟨e', he⟩ := hn rfl
        rw [← hs] at he
        cases he
      · refine .inr (.inr ⟨s, r, (hO r).mp hs.symm, hs.symm, ?_⟩)
        show (BAct.seq (BAct.quiet (Act.afterScatter env t.1.opt r))
          (BAct.stage2 env scr2 false (r.ref.map Prod.fst) (some (r.ref.map Prod.snd)))
          (t.1, { t.2 with one := some (s.shows env.rt env.sched) })).1.2 = _
        have hp := Act.afterScatter_params env t.1.opt r t.1
        generalize Act.afterScatter env t.1.opt r = a at hp
        unfold BAct.seq
        by_cases hc : (a t.1).2 = .cont
        · rw [if_pos (show (BAct.quiet a (t.1, { t.2 with one := some (s.shows env.rt env.sched) })).2 = .cont from hc),
            if_pos hc, BAct.stage2_bars h2]
          show Bars.mk (some _) (some ⟨(a t.1).1.opt.params.iterations, 0, "Stage 2"⟩) = _
          rw [hp]
        · rw [if_neg (show ¬ (BAct.quiet a (t.1, { t.2 with one := some (s.shows env.rt env.sched) })).2 = .cont from hc),
            if_neg hc]
          show Bars.mk (some _) t.2.two = _
          rw [ht]

/-- The bar of stage 1 in a run from scratch. If the scatter search ends, the bar has made five of its three steps and says
that the best solution was found. If the scatter search fails, the bar says how far it got. There is no bar if the scatter
search cannot be built. -/
theorem C115_stage1_partial (env : Env n) (scr1 scr2 : Screen) (o : Opt n) (loaded : Option (Except CkErr (Ckpt n)))
    (h1 : ∀ i, scr1 i = true) (h2 : ∀ i, scr2 i = true) (h : Fresh o loaded) :
    ((∃ k, Event.scatter k ∈ (run env o loaded).final.trace) ∧
      (runBars env scr1 scr2 o loaded).2.one = some ⟨3, 5, "Stage 1, found best solution"⟩) ∨
    ((∃ e, (run env o loaded).result = .error (.scatterRun e)) ∧ (run env o loaded).final.trace = [] ∧
      ((runBars env scr1 scr2 o loaded).2.one = some ⟨3, 1, "Stage 1, initialized reference set"⟩ ∨
       (runBars env scr1 scr2 o loaded).2.one = some ⟨3, 3, "Stage 1, initialized and diversified"⟩ ∨
       (runBars env scr1 scr2 o loaded).2.one = some ⟨3, 4, "Stage 1, generated trial points"⟩)) ∨
    ((∃ e, (run env o loaded).result = .error (.scatterNew e)) ∧ (run env o loaded).final.trace = [] ∧
      (runBars env scr1 scr2 o loaded).2.one = none) := by
  have hf : ∀ e, Act.scatter env (started env o) = .error e →
      run env o loaded = ⟨⟨started env o, 0, 0, []⟩, .error e⟩ := by
    intro e he
    rw [run_fresh env o loaded h]
    unfold Act.body Act.stage1
    rw [if_neg (by decide)]
    dsimp only
    rw [he]
    rfl
  rw [runBars_fresh env scr1 scr2 o loaded h]
  rcases stage1_bars (env := env) h1 h2 (⟨started env o, 0, 0, []⟩, ⟨none, none⟩) rfl with
    ⟨e, he, hb⟩ | ⟨s, e, hr, he, hb⟩ | ⟨s, r, hr, he, hb⟩
  · rw [hb, hf _ he]
    exact .inr (.inr ⟨⟨e, rfl⟩, rfl, rfl⟩)
  · rw [hb, hf _ he]
    refine .inr (.inl ⟨⟨e, rfl⟩, rfl, ?_⟩)
    rcases shows_error hr with h | h | h <;> rw [h]
    · exact .inl rfl
    · exact .inr (.inl rfl)
    · exact .inr (.inr rfl)
  · refine .inl ⟨⟨r.evals, ?_⟩, ?_⟩
    · rw [run_fresh env o loaded h, finish_final]
      obtain ⟨t, ht⟩ := body_after env he
      rw [ht]
      simp
    · rw [hb, shows_ok hr]

/-- The bar of stage 2 in a run from scratch: as soon as a local search of stage 2 starts it is there, and it stands at 0 of
as many steps as there are iterations. -/
theorem C115_fresh (env : Env n) (scr1 scr2 : Screen) (o : Opt n) (loaded : Option (Except CkErr (Ckpt n)))
    (h1 : ∀ i, scr1 i = true) (h2 : ∀ i, scr2 i = true) (h : Fresh o loaded) :
    (runBars env scr1 scr2 o loaded).2.two = some ⟨o.params.iterations, 0, "Stage 2"⟩ ∨
    ((runBars env scr1 scr2 o loaded).2.two = none ∧
      ∀ i p r, Event.search (some i) p r ∉ (run env o loaded).final.trace) := by
  have hf : ∀ e, Act.scatter env (started env o) = .error e →
      run env o loaded = ⟨⟨started env o, 0, 0, []⟩, .error e⟩ := by
    intro e he
    rw [run_fresh env o loaded h]
    unfold Act.body Act.stage1
    rw [if_neg (by decide)]
    dsimp only
    rw [he]
    rfl
  rw [runBars_fresh env scr1 scr2 o loaded h]
  rcases stage1_bars (env := env) h1 h2 (⟨started env o, 0, 0, []⟩, ⟨none, none⟩) rfl with
    ⟨e, he, hb⟩ | ⟨s, e, hr, he, hb⟩ | ⟨s, r, hr, he, hb⟩
  · rw [hb, hf _ he]
    exact .inr ⟨rfl, fun i p r h => (by cases h)⟩
  · rw [hb, hf _ he]
    exact .inr ⟨rfl, fun i p r h => (by cases h)⟩
  · rw [hb]
    dsimp only
    by_cases hc : (Act.afterScatter env (started env o) r ⟨started env o, 0, 0, []⟩).2 = .cont
    · rw [if_pos hc]
      exact .inl rfl
    · rw [if_neg hc]
      refine .inr ⟨rfl, ?_⟩
      rw [run_fresh env o loaded h, finish_final, body_split env he, Act.seq_def, if_neg hc]
      obtain ⟨t, ht, hn⟩ := Act.afterScatter_none env (started env o) r ⟨started env o, 0, 0, []⟩
      rw [ht]
      intro i p q hm
      exact hn i p q (by simpa using hm)

/-- The bar of stage 2 in a resumed run stands where the checkpoint was written. There is no bar of stage 1. -/
theorem C115_resumed (env : Env n) (scr1 scr2 : Screen) (o : Opt n) (loaded : Option (Except CkErr (Ckpt n)))
    (h2 : ∀ i, scr2 i = true) {c : Ckpt n} (h : Resumes o loaded c) :
    (runBars env scr1 scr2 o loaded).2 = ⟨none, some ⟨c.params.iterations, c.currentIteration, "Stage 2"⟩⟩ := by
  rw [runBars_resumes env scr1 scr2 o loaded h]
  unfold BAct.body
  rw [if_pos rfl, BAct.stage2_bars h2]
  rfl

/-! Where the claim fails. -/

/-- A terminal that can be written. -/
def tty : Screen := fun _ => true

/-- A terminal that is gone. -/
def gone : Screen := fun _ => false

/-- The bar of stage 1 shows five steps of three after every run that gets through stage 1, for instance this one. -/
theorem C115_stage1_violated : ∃ o : Opt 1, Built o ∧ Fresh o none ∧ succeeds (run (env stay) o none) = true ∧
    ∃ b, (runBars (env stay) tty tty o none).2.one = some b ∧ b.total < b.count :=
  ⟨demoSeq, demoSeq_built, .inl rfl, by decide +kernel, ⟨3, 5, "Stage 1, found best solution"⟩, by decide +kernel,
    by decide⟩

/-- The bar of stage 2 still shows 0 of 4 steps when all four iterations are done. -/
theorem C115_stage2_violated : ∃ o : Opt 1, Built o ∧ Fresh o none ∧ succeeds (run (env stay) o none) = true ∧
    (examined (run (env stay) o none).final.trace).length = o.params.iterations ∧ 0 < o.params.iterations ∧
    ∃ b, (runBars (env stay) tty tty o none).2.two = some b ∧ b.count = 0 :=
  ⟨demoSeq, demoSeq_built, .inl rfl, by decide +kernel, by decide +kernel, by decide +kernel,
    ⟨4, 0, "Stage 2"⟩, by decide +kernel, rfl⟩

/-- A run that would succeed panics if the terminal cannot be written. -/
theorem C115_write_violated : ∃ o : Opt 1, Built o ∧ Fresh o none ∧ succeeds (run (env stay) o none) = true ∧
    (runBars (env stay) gone gone o none).1.result = .error (.scatterRun .panic) :=
  ⟨demoSeq, demoSeq_built, .inl rfl, by decide +kernel, resultErr_iff (by decide +kernel)⟩

/-- If the local search of stage 1 fails there is no bar of stage 2. -/
example : (runBars (env fun _ _ _ => .error .noSolution) tty tty demoSeq none).2 =
      ⟨some ⟨3, 5, "Stage 1, found best solution"⟩, none⟩ ∧
    (∀ i, tty i = true) ∧ Fresh demoSeq none :=
  ⟨by decide +kernel, fun _ => rfl, .inl rfl⟩

/-- A resumed run. -/
example : Resumes resuming (some (.ok (midRun.createCkpt (F64.zero, "t")))) (midRun.createCkpt (F64.zero, "t")) ∧
    0 < (midRun.createCkpt (F64.zero, "t")).currentIteration ∧
    (runBars (env stay) tty tty resuming (some (.ok (midRun.createCkpt (F64.zero, "t"))))).2.two =
      some ⟨(midRun.createCkpt (F64.zero, "t")).params.iterations,
        (midRun.createCkpt (F64.zero, "t")).currentIteration, "Stage 2"⟩ :=
  ⟨resuming_resumes _, by decide +kernel, by decide +kernel⟩

/-- An objective that cannot be evaluated: the bar stops after its first step. -/
example : ∃ o : Opt 1, Fresh o none ∧
    (runBars (env stay) tty tty o none).2 = ⟨some ⟨3, 1, "Stage 1, initialized reference set"⟩, none⟩ :=
  ⟨{ demoSeq with problem := { lin with objective := fun _ => .error ⟨0⟩ } }, .inl rfl, by decide +kernel⟩

end GS.Props
