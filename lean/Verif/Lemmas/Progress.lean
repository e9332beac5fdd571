/- Progress bars that can be written do nothing to a run. -/
import Verif.Model.Progress
import Verif.Lemmas.Built
import Verif.Lemmas.Early

namespace GS
variable {n : Nat}

/-- Every step can be written. -/
def Screen.Works (scr : Screen) : Prop := ∀ i, scr i = true

theorem Bar.step_works {scr : Screen} (h : scr.Works) (b : Bar) : b.step scr = some { b with count := b.count + 1 } := by
  unfold Bar.step; rw [h, if_pos rfl]

theorem Bar.tick_works {scr : Screen} (h : scr.Works) (d : String) (b : Bar) :
    b.tick scr d = some ⟨b.total, b.count + 1, d⟩ := by
  unfold Bar.tick; rw [Bar.step_works h]

theorem Bar.steps_works {scr : Screen} (h : scr.Works) : ∀ (k : Nat) (b : Bar),
    Bar.steps scr k b = some { b with count := b.count + k }
  | 0, b => rfl
  | k + 1, b => by
    unfold Bar.steps
    rw [Bar.step_works h, Option.bind_some, Bar.steps_works h k]
    simp only [Option.some.injEq, Bar.mk.injEq, true_and, and_true]
    omega

/-- What the bar of stage 1 shows at the end. -/
def Scatter.shows (rt : Rt n) (sched : Sched) (s : Scatter n) : Bar :=
  match s.init rt sched with
  | .error _ => ⟨3, 1, "Stage 1, initialized reference set"⟩
  | .ok s1 =>
    match s1.trialPoints rt with
    | none => ⟨3, 3, "Stage 1, initialized and diversified"⟩
    | some _ =>
      match s.run rt sched with
      | .error _ => ⟨3, 4, "Stage 1, generated trial points"⟩
      | .ok _ => ⟨3, 5, "Stage 1, found best solution"⟩

theorem Scatter.initBar_works {rt : Rt n} {sched : Sched} {scr : Screen} (h : scr.Works) (s : Scatter n) :
    s.initBar rt sched scr Bar.one = match s.init rt sched with
      | .error e => (⟨3, 1, "Stage 1, initialized reference set"⟩, .error e)
      | .ok s1 => (⟨3, 2, "Stage 1, diversified reference set"⟩, .ok s1) := by
  unfold Scatter.initBar Scatter.init
  rw [Bar.tick_works h]
  dsimp only
  cases s.diversify rt sched (Scatter.seedPoints s.problem ++ s.customPoints) with
  | error e => rfl
  | ok x =>
    dsimp only
    cases Scatter.evalInit s.parallel sched.evals s.problem x.2 with
    | error e => rfl
    | ok objs =>
      dsimp only
      rw [Bar.tick_works h]
      rfl

theorem Scatter.runBar_works {rt : Rt n} {sched : Sched} {scr : Screen} (h : scr.Works) (s : Scatter n) :
    s.runBar rt sched scr = (s.shows rt sched, s.run rt sched) := by
  unfold Scatter.runBar Scatter.shows
  rw [Scatter.initBar_works h]
  cases hi : s.init rt sched with
  | error e =>
    have : s.run rt sched = .error e := by unfold Scatter.run; rw [hi]
    rw [this]
  | ok s1 =>
    dsimp only
    rw [Bar.tick_works h]
    dsimp only
    cases ht : s1.trialPoints rt with
    | none =>
      have : s.run rt sched = .error .panic := by unfold Scatter.run; rw [hi]; dsimp only; rw [ht]
      rw [this]
    | some x =>
      dsimp only
      rw [Bar.tick_works h]
      dsimp only
      have hr : s.run rt sched = match x.1.update rt sched x.2 with
        | none => .error .panic
        | some s3 =>
          match s3.best sched with
          | .error e => .error e
          | .ok b =>
            .ok ⟨s3.refSet.zip s3.refObjs, b, s1.refSet.length, x.2.length, s3.refSet.length,
              s1.refSet.length +
                (x.2.filter (Scatter.trialEvaluated x.1
                  (Scatter.distThreshold x.1.parallel sched.sum x.1.refSet))).length⟩ := by
        unfold Scatter.run; rw [hi]; dsimp only; rw [ht]
        rfl
      rw [hr]
      cases x.1.update rt sched x.2 with
      | none => rfl
      | some s3 =>
        dsimp only
        cases s3.best sched with
        | error e => rfl
        | ok p =>
          dsimp only
          rw [Bar.tick_works h]

theorem BAct.scatter_works {env : Env n} {scr : Screen} (h : scr.Works) (o : Opt n) :
    (BAct.scatter env scr o).2 = Act.scatter env o ∧
    ((BAct.scatter env scr o).1 = none ∨ ∃ s : Scatter n, (BAct.scatter env scr o).1 = some (s.shows env.rt env.sched) ∧
      (∀ r, Act.scatter env o = .ok r ↔ s.run env.rt env.sched = .ok r) ∧
      (∀ e, Act.scatter env o = .error e ↔ ∃ x, e = .scatterRun x ∧ s.run env.rt env.sched = .error x)) ∧
    ((BAct.scatter env scr o).1 = none → ∃ e, Act.scatter env o = .error (.scatterNew e)) := by
  unfold BAct.scatter Act.scatter
  cases Scatter.new o.problem o.params with
  | error e => exact ⟨rfl, .inl rfl, fun _ => ⟨e, rfl⟩⟩
  | ok s =>
    dsimp only
    cases o.custom with
    | none =>
      dsimp only
      rw [Scatter.runBar_works h]
      cases hr : Scatter.run env.rt env.sched (s.setParallel o.par) with
      | error e =>
        refine ⟨rfl, .inr ⟨s.setParallel o.par, rfl, fun r => ?_, fun x => ?_⟩, fun h => (by cases h)⟩
        · rw [hr]; exact ⟨fun h => (by cases h), fun h => (by cases h)⟩
        · rw [hr]
          refine ⟨fun h => ?_, ?_⟩
          · cases h; exact ⟨e, rfl, rfl⟩
          · rintro ⟨y, rfl, hy⟩; cases hy; rfl
      | ok r =>
        refine ⟨rfl, .inr ⟨s.setParallel o.par, rfl, fun r' => ?_, fun x => ?_⟩, fun h => (by cases h)⟩
        · rw [hr]; exact ⟨fun h => (by cases h; rfl), fun h => (by cases h; rfl)⟩
        · rw [hr]
          refine ⟨fun h => (by cases h), ?_⟩
          rintro ⟨y, _, hy⟩; cases hy
    | some l =>
      dsimp only
      rw [Scatter.runBar_works h]
      cases hr : Scatter.run env.rt env.sched ((s.setParallel o.par).withCustom l) with
      | error e =>
        refine ⟨rfl, .inr ⟨(s.setParallel o.par).withCustom l, rfl, fun r => ?_, fun x => ?_⟩, fun h => (by cases h)⟩
        · rw [hr]; exact ⟨fun h => (by cases h), fun h => (by cases h)⟩
        · rw [hr]
          refine ⟨fun h => ?_, ?_⟩
          · cases h; exact ⟨e, rfl, rfl⟩
          · rintro ⟨y, rfl, hy⟩; cases hy; rfl
      | ok r =>
        refine ⟨rfl, .inr ⟨(s.setParallel o.par).withCustom l, rfl, fun r' => ?_, fun x => ?_⟩, fun h => (by cases h)⟩
        · rw [hr]; exact ⟨fun h => (by cases h; rfl), fun h => (by cases h; rfl)⟩
        · rw [hr]
          refine ⟨fun h => (by cases h), ?_⟩
          rintro ⟨y, _, hy⟩; cases hy

/-- The piece with bars does what the one without does. -/
def BAct.Same (a : BAct n) (b : Act n) : Prop := ∀ t, (a t).1.1 = (b t.1).1 ∧ (a t).2 = (b t.1).2

theorem BAct.Same.quiet (a : Act n) : BAct.Same (BAct.quiet a) a := fun _ => ⟨rfl, rfl⟩

theorem BAct.Same.seq {a c : BAct n} {b d : Act n} (h : BAct.Same a b) (k : BAct.Same c d) :
    BAct.Same (BAct.seq a c) (b ;; d) := by
  intro t
  unfold BAct.seq
  obtain ⟨h1, h2⟩ := h t
  rw [Act.seq]
  cases hb : b t.1 with
  | mk m out =>
    rw [hb] at h1 h2
    cases out with
    | cont =>
      rw [if_pos h2]
      have := k (a t).1
      rw [h1] at this
      exact this
    | stop =>
      rw [if_neg (by rw [h2]; simp)]
      exact ⟨h1, h2⟩
    | fail e =>
      rw [if_neg (by rw [h2]; simp)]
      exact ⟨h1, h2⟩

theorem Act.skip_seq (a : Act n) : (Act.skip ;; a) = a := rfl

theorem Act.seq_assoc (a b c : Act n) : ((a ;; b) ;; c) = (a ;; b ;; c) := by
  funext m
  unfold Act.seq
  cases a m with
  | mk m' out => cases out <;> rfl

theorem BAct.Same.openBar {scr : Screen} (h : scr.Works) (resumed : Bool) :
    BAct.Same (BAct.openBar (n := n) scr resumed) Act.skip := by
  intro t
  unfold BAct.openBar
  rw [Bar.steps_works h]
  exact ⟨rfl, rfl⟩

theorem BAct.Same.stage2 {env : Env n} {scr : Screen} (h : scr.Works) (resumed : Bool) (ref : List (Pt n))
    (objs : Option (List F64)) : BAct.Same (BAct.stage2 env scr resumed ref objs) (Act.stage2 env resumed ref objs) :=
  (BAct.Same.quiet _).seq ((BAct.Same.openBar h resumed).seq (BAct.Same.quiet _))

theorem BAct.Same.stage1 {env : Env n} {scr1 scr2 : Screen} (h1 : scr1.Works) (h2 : scr2.Works) :
    BAct.Same (BAct.stage1 env scr1 scr2) (Act.body env false) := by
  intro t
  unfold BAct.stage1 Act.body Act.stage1
  rw [if_neg (by decide)]
  have hs := (BAct.scatter_works (env := env) h1 t.1.opt).1
  cases hb : BAct.scatter env scr1 t.1.opt with
  | mk b r =>
    rw [hb] at hs
    dsimp only at hs
    rw [← hs]
    cases r with
    | error e => exact ⟨rfl, rfl⟩
    | ok r =>
      dsimp only
      have := ((BAct.Same.quiet (Act.log (.scatter r.evals) ;;
        (if t.1.opt.tracks1 then Act.obsScatter env r else Act.skip) ;;
        Act.obsScatterDone env (r.ref.map Prod.fst) (r.ref.map Prod.snd) ;;
        Act.stage1Local env r.best (r.ref.map Prod.fst) ;; (fun m => ({ m with uc := 0 }, .cont)))).seq
        (BAct.Same.stage2 (env := env) h2 false (r.ref.map Prod.fst) (some (r.ref.map Prod.snd))))
        (t.1, { t.2 with one := b })
      simp only [Act.seq_assoc] at this
      exact this

theorem BAct.Same.body {env : Env n} {scr1 scr2 : Screen} (h1 : scr1.Works) (h2 : scr2.Works) (resumed : Bool) :
    BAct.Same (BAct.body env scr1 scr2 resumed) (Act.body env resumed) := by
  intro t
  cases resumed with
  | false => exact BAct.Same.stage1 h1 h2 t
  | true => exact BAct.Same.stage2 h2 true _ _ ({ t.1 with uc := t.1.opt.unchanged }, t.2)

/-! ### What the bars show -/

/-- Actions that start no search of stage 2. -/
def NoStage2 (a : Act n) : Prop := ∀ m, ∃ t, (a m).1.trace = m.trace ++ t ∧ ∀ i p r, Event.search (some i) p r ∉ t

theorem NoSearch.noStage2 {a : Act n} (h : NoSearch a) : NoStage2 a := fun m =>
  let ⟨t, h1, h2⟩ := h m
  ⟨t, h1, fun i p r => h2 (some i) p r⟩

theorem NoStage2.seq {a b : Act n} (ha : NoStage2 a) (hb : NoStage2 b) : NoStage2 (a ;; b) := by
  intro m
  rw [Act.seq_def]
  obtain ⟨t, h1, h2⟩ := ha m
  split
  · obtain ⟨t', k1, k2⟩ := hb (a m).1
    refine ⟨t ++ t', by rw [k1, h1, List.append_assoc], fun i p r h => ?_⟩
    rw [List.mem_append] at h
    rcases h with h | h
    · exact h2 i p r h
    · exact k2 i p r h
  · exact ⟨t, h1, h2⟩

theorem NoStage2.stage1Local (env : Env n) (p : Pt n) (ref : List (Pt n)) : NoStage2 (Act.stage1Local env p ref) := by
  intro m
  unfold Act.stage1Local
  cases env.solve m.opt.lsType m.opt.lsConfig p with
  | error e => exact ⟨[_], rfl, fun i q r h => by simp at h⟩
  | ok x =>
    dsimp only
    have hq : NoSearch (Act.setThreshold x.1.objective ;;
        Act.obsLocal1 env x.1 (if m.opt.tracks1 then x.2 else 0) ;;
        Act.process x.1 fun _ => fun m' =>
          if m'.opt.targetReached then (Act.obsEnd1 env ;; fun m'' => (m'', .stop)) m'
          else (Act.storeRef ref ;; Act.obsEnd1 env) m') := by
      refine (NoSearch.same fun _ => rfl).seq ((QuietAct.obsLocal1 env _ _).noSearch.seq (NoSearch.process fun v => ?_))
      intro m'
      beta_reduce
      by_cases ht : m'.opt.targetReached = true
      · rw [if_pos ht]
        exact ((QuietAct.obsEnd1 env).noSearch.seq (NoSearch.same fun _ => rfl)) m'
      · rw [if_neg ht]
        exact ((QuietAct.storeRef ref).noSearch.seq (QuietAct.obsEnd1 env).noSearch) m'
    obtain ⟨t, h1, h2⟩ := hq { m with trace := m.trace ++ [.search none p (.ok x.1)] }
    refine ⟨.search none p (.ok x.1) :: t, by rw [h1]; simp, fun i q r h => ?_⟩
    rw [List.mem_cons] at h
    rcases h with h | h
    · cases h
    · exact h2 _ q r h

/-- Stage 1 after a scatter search that succeeded. -/
def Act.afterScatter (env : Env n) (o : Opt n) (r : Scatter.Result n) : Act n :=
  Act.log (.scatter r.evals) ;;
    (if o.tracks1 then Act.obsScatter env r else Act.skip) ;;
    Act.obsScatterDone env (r.ref.map Prod.fst) (r.ref.map Prod.snd) ;;
    Act.stage1Local env r.best (r.ref.map Prod.fst) ;; (fun m => ({ m with uc := 0 }, .cont))

theorem Act.afterScatter_none (env : Env n) (o : Opt n) (r : Scatter.Result n) :
    NoStage2 (Act.afterScatter env o r) := by
  refine (QuietAct.log rfl).noSearch.noStage2.seq (NoStage2.seq ?_ ((QuietAct.obsScatterDone env _ _).noSearch.noStage2.seq
    ((NoStage2.stage1Local env _ _).seq (NoSearch.same fun _ => rfl).noStage2)))
  split
  · exact (QuietAct.obsScatter env r).noSearch.noStage2
  · exact QuietAct.skip.noSearch.noStage2

theorem Act.afterScatter_params (env : Env n) (o : Opt n) (r : Scatter.Result n) (m : M n) :
    (Act.afterScatter env o r m).1.opt.params = m.opt.params := by
  have h : Steps env (Act.log (.scatter r.evals) ;;
    (if o.tracks1 then Act.obsScatter env r else Act.skip) ;;
    Act.obsScatterDone env (r.ref.map Prod.fst) (r.ref.map Prod.snd) ;;
    Act.stage1Local env r.best (r.ref.map Prod.fst)) := by
    refine (Steps.log rfl rfl).seq (Steps.seq ?_ ((Steps.obsScatterDone env _ _).seq (Steps.stage1Local env _ _)))
    split
    · exact Steps.obsScatter env r
    · exact Steps.skip env
  have he : Act.afterScatter env o r = ((Act.log (.scatter r.evals) ;;
    (if o.tracks1 then Act.obsScatter env r else Act.skip) ;;
    Act.obsScatterDone env (r.ref.map Prod.fst) (r.ref.map Prod.snd) ;;
    Act.stage1Local env r.best (r.ref.map Prod.fst)) ;; (fun m => ({ m with uc := 0 }, .cont))) := by
    unfold Act.afterScatter
    simp only [Act.seq_assoc]
  rw [he]
  generalize (Act.log (.scatter r.evals) ;;
    (if o.tracks1 then Act.obsScatter env r else Act.skip) ;;
    Act.obsScatterDone env (r.ref.map Prod.fst) (r.ref.map Prod.snd) ;;
    Act.stage1Local env r.best (r.ref.map Prod.fst)) = a at h
  rw [Act.seq_def]
  split
  · exact (h m).cfg.params
  · exact (h m).cfg.params

theorem BAct.stage2_bars {env : Env n} {scr : Screen} (h : scr.Works) (resumed : Bool) (ref : List (Pt n))
    (objs : Option (List F64)) (t : M n × Bars) :
    (BAct.stage2 env scr resumed ref objs t).1.2 =
      ⟨t.2.one, some ⟨t.1.opt.params.iterations, if resumed then t.1.opt.curIter else 0, "Stage 2"⟩⟩ := by
  unfold BAct.stage2 BAct.seq BAct.openBar BAct.quiet
  rw [if_pos (show (Act.obsStart2 env t.1).2 = .cont from rfl), Bar.steps_works h]
  dsimp only
  rw [if_pos rfl, Nat.zero_add]
  rfl

theorem body_split (env : Env n) {m : M n} {r : Scatter.Result n} (he : Act.scatter env m.opt = .ok r) :
    Act.body env false m = (Act.afterScatter env m.opt r ;;
      Act.stage2 env false (r.ref.map Prod.fst) (some (r.ref.map Prod.snd))) m := by
  unfold Act.body Act.stage1 Act.afterScatter
  rw [if_neg (by decide)]
  dsimp only
  rw [he]
  simp only [Act.seq_assoc]

theorem body_after (env : Env n) {m : M n} {r : Scatter.Result n} (he : Act.scatter env m.opt = .ok r) :
    ∃ t, (Act.body env false m).1.trace = m.trace ++ Event.scatter r.evals :: t := by
  have h : Steps env ((if m.opt.tracks1 then Act.obsScatter env r else Act.skip) ;;
      Act.obsScatterDone env (r.ref.map Prod.fst) (r.ref.map Prod.snd) ;;
      Act.stage1Local env r.best (r.ref.map Prod.fst) ;; (fun m => ({ m with uc := 0 }, .cont)) ;;
      Act.stage2 env false (r.ref.map Prod.fst) (some (r.ref.map Prod.snd))) := by
    refine Steps.seq ?_ (Steps.seq (Steps.obsScatterDone env _ _) (Steps.seq (Steps.stage1Local env _ _)
      (Steps.seq (fun m => Relation.ReflTransGen.single (Prim.uc m 0)) (Steps.stage2 env _ _ _))))
    split
    · exact Steps.obsScatter env _
    · exact Steps.skip env
  obtain ⟨t, ht⟩ := (h { m with trace := m.trace ++ [.scatter r.evals] }).trace
  refine ⟨t, ?_⟩
  unfold Act.body Act.stage1
  rw [if_neg (by decide)]
  dsimp only
  rw [he]
  refine Eq.trans ht ?_
  simp

end GS
