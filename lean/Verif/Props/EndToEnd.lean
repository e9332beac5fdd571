/- Runs whose local solver is the local solver runner (C81-C84): configuration mismatches, failing evaluations,
returned values and evaluation counts, from the run down to the calls of the user's functions. -/
import Verif.Model.Bridge
import Verif.Props.Conversation
import Verif.Props.Observed
import Verif.Props.SolutionSet

namespace GS.Props
open GS GS.Runner F64
variable {n : Nat}

theorem vec_length (x : Pt n) : (vec x).length = n := by simp [vec]

theorem rowPt_eq_some {v : Vec} {x : Pt n} (h : Opt.rowPt v = some x) : v = vec x := by
  unfold Opt.rowPt at h
  split at h
  · rename_i hl
    cases h
    apply List.ext_getElem
    · simp [vec, hl]
    · intro i h1 h2
      simp [vec]
  · cases h

theorem rowPt_of_length {v : Vec} (h : v.length = n) : ∃ x : Pt n, Opt.rowPt v = some x := by
  unfold Opt.rowPt
  rw [dif_pos h]
  exact ⟨_, rfl⟩

theorem solver_ok {lib : Lib} {q : Prob} {ty : SolverType} {cfg : SolverConfig} {x : Pt n} {s : Sol n} {k : Nat}
    (h : solver lib q ty cfg x = .ok (s, k)) :
    (solveWithTracking lib q ty cfg (vec x) true).result = .ok ((vec s.point, s.objective), k) := by
  unfold solver toSol at h
  split at h
  · cases h
  · rename_i v c k' hr
    split at h
    · rename_i y hy
      cases h
      rw [hr, rowPt_eq_some hy]
    · cases h

/-! ### Demonstration data -/

/-- The problem `lin` (minimise `x` over `[1, 4]`) as the runner sees it. -/
def linProb : Prob where
  objective
    | [x] => .ok x
    | _ => .error ⟨0⟩
  gradient _ := .ok [F64.one]
  hessian _ := .ok [[F64.zero]]
  bounds := [[Witness.num 1, Witness.num 4]]
  constraints := []

theorem lin_views : Views Witness.lin linProb where
  objective x := rfl
  bounds := rfl
  constraints x := rfl

/-- The environment of the demonstrations with the runner and the solvers `idleLib`. -/
def idleEnv : Env 1 := Witness.env (solver idleLib linProb)

theorem idleEnv_uses : Uses idleEnv idleLib linProb := rfl

/-! ### C81: a configuration of another solver -/

/-- The event is no work on solutions: nothing was examined, evaluated, stored or saved by stage 2. -/
def idleRun : Event n → Bool
  | .scatter _ => true
  | .callback _ _ _ => true
  | .search _ _ (.error _) => true
  | _ => false

theorem stage1Local_refused {env : Env n} {p : Pt n} {ref : List (Pt n)} {m : M n} {e : LErr}
    (h : env.solve m.opt.lsType m.opt.lsConfig p = .error e) :
    Act.stage1Local env p ref m =
      ({ m with trace := m.trace ++ [.search none p (.error e)] }, .fail (.localSolver e)) := by
  unfold Act.stage1Local
  rw [h]

/-- The action adds only callbacks and scatter events to the trace and does not stop. -/
def Prelude (a : Act n) : Prop := ∀ m, (a m).2 = .cont ∧ SameCfg m.opt (a m).1.opt ∧
  (a m).1.opt.solset = m.opt.solset ∧ ∃ t, (a m).1.trace = m.trace ++ t ∧ ∀ e ∈ t, idleRun e = true

theorem Prelude.seq {a b : Act n} (ha : Prelude a) (hb : Prelude b) : Prelude (a ;; b) := by
  intro m
  obtain ⟨h1, h2, h3, t, h4, h5⟩ := ha m
  obtain ⟨g1, g2, g3, u, g4, g5⟩ := hb (a m).1
  rw [Act.seq_def, if_pos h1]
  refine ⟨g1, h2.trans g2, g3.trans h3, t ++ u, by rw [g4, h4, List.append_assoc], fun e he => ?_⟩
  rw [List.mem_append] at he
  exact he.elim (h5 e) (g5 e)

theorem Prelude.obs {f : Opt n → Obs n → Obs n} : Prelude (Act.modify fun o => o.mapObs (f o)) :=
  fun _ => ⟨rfl, by constructor <;> rfl, rfl, [], by simp [Act.modify], by simp⟩

theorem Prelude.skip : Prelude (Act.skip (n := n)) :=
  fun _ => ⟨rfl, SameCfg.refl _, rfl, [], by simp [Act.skip], by simp⟩

theorem Prelude.invoke (env : Env n) (k : Nat) : Prelude (Act.invoke env k) := by
  intro m
  unfold Act.invoke
  split
  · exact ⟨rfl, SameCfg.refl _, rfl, [], by simp, by simp⟩
  · refine ⟨rfl, by constructor <;> rfl, rfl, ?_⟩
    dsimp only
    split
    · exact ⟨[.callback k _ _], rfl, by simp [idleRun]⟩
    · exact ⟨[], by simp, by simp⟩

theorem Prelude.log {e : Event n} (h : idleRun e = true) : Prelude (Act.log e) :=
  fun _ => ⟨rfl, SameCfg.refl _, rfl, [e], rfl, by simp [h]⟩

/-- Stage 1 up to its local search. -/
theorem prelude_stage1 (env : Env n) (o : Opt n) (r : Scatter.Result n) (ref : List (Pt n)) (objs : List F64) :
    Prelude (Act.log (.scatter r.evals) ;;
      (if o.tracks1 then Act.obsScatter env r else Act.skip) ;; Act.obsScatterDone env ref objs) := by
  refine Prelude.seq (Prelude.log rfl) (Prelude.seq ?_ ?_)
  · split
    · exact Prelude.seq Prelude.obs (Prelude.seq (Prelude.invoke env _) (Prelude.seq Prelude.obs
        (Prelude.seq (Prelude.invoke env _) (Prelude.seq Prelude.obs (Prelude.invoke env _)))))
    · exact Prelude.skip
  · exact Prelude.seq Prelude.obs (Prelude.seq (Prelude.invoke env _) Prelude.obs)

theorem seq_assoc (a b c : Act n) : ((a ;; b) ;; c) = (a ;; b ;; c) := by
  funext m
  simp only [Act.seq_def]
  by_cases h : (a m).2 = .cont
  · simp only [if_pos h]
  · simp only [if_neg h]

/-- A fresh run whose first local search fails. -/
theorem first_search_fails {env : Env n} {o : Opt n} {loaded : Option (Except CkErr (Ckpt n))} {e : LErr}
    (hf : Fresh o loaded) {r : Scatter.Result n} (hr : Act.scatter env o = .ok r)
    (he : env.solve o.lsType o.lsConfig r.best = .error e) :
    (run env o loaded).result = .error (.localSolver e) ∧
      (run env o loaded).final.opt.solset = o.solset ∧
      ∀ x ∈ (run env o loaded).final.trace, idleRun x = true := by
  rw [run_fresh env o loaded hf]
  have hb : ∃ m, Act.body env false ⟨started env o, 0, 0, []⟩ = (m, .fail (.localSolver e)) ∧
      m.opt.solset = o.solset ∧ ∀ x ∈ m.trace, idleRun x = true := by
    unfold Act.body
    rw [if_neg (by simp)]
    unfold Act.stage1
    rw [show Act.scatter env (started env o) = Act.scatter env o from rfl, hr]
    dsimp only
    rw [← seq_assoc, ← seq_assoc, Act.seq_def]
    have hp := prelude_stage1 env (started env o) r (r.ref.map Prod.fst) (r.ref.map Prod.snd)
    rw [← seq_assoc] at hp
    obtain ⟨h1, h2, h3, t, h4, h5⟩ := hp ⟨started env o, 0, 0, []⟩
    rw [if_pos h1, Act.seq_def, stage1Local_refused (e := e) (by rw [h2.lsType, h2.lsConfig]; exact he)]
    rw [if_neg (by simp)]
    refine ⟨_, rfl, h3, fun x hx => ?_⟩
    dsimp only at hx
    rw [List.mem_append, h4, List.nil_append, List.mem_singleton] at hx
    rcases hx with hx | rfl
    · exact h5 x hx
    · rfl
  obtain ⟨m, h1, h2, h3⟩ := hb
  rw [h1]
  exact ⟨rfl, h2, h3⟩

/-- C81: if the configuration in the parameters belongs to another solver than the requested one, a fresh run
whose scatter search succeeds fails with the error of the requested solver; no solution is stored, no point is
examined and no checkpoint is written. -/
theorem C81_mismatch {env : Env n} {o : Opt n} {loaded : Option (Except CkErr (Ckpt n))} {lib : Lib} {q : Prob}
    (hb : Built o) (hf : Fresh o loaded) (hu : Uses env lib q)
    (hk : configKind o.params.solverConfig ≠ o.params.solverType) {r : Scatter.Result n}
    (hr : Act.scatter env o = .ok r) :
    ∃ e, (run env o loaded).result = .error (.localSolver e) ∧ configError e = some o.params.solverType ∧
      (solveWithTracking lib q o.params.solverType o.params.solverConfig (vec r.best) true).queries = [] ∧
      (run env o loaded).final.opt.solset = none ∧
      ∀ x ∈ (run env o loaded).final.trace, idleRun x = true := by
  obtain ⟨⟨e, h1, h2⟩, h3⟩ := C61_mismatch lib q o.params.solverType o.params.solverConfig (vec r.best) true hk
  have he : env.solve o.lsType o.lsConfig r.best = .error e := by
    rw [hu, hb.unused.lsType, hb.unused.lsConfig]
    unfold solver
    rw [h1]; rfl
  obtain ⟨g1, g2, g3⟩ := first_search_fails hf hr he
  exact ⟨e, g1, h2, h3, g2.trans hb.unused.solset, g3⟩

/-- C81: a run whose parameters hold a configuration of another solver never succeeds. -/
theorem C81_never_succeeds {env : Env n} {o : Opt n} {loaded : Option (Except CkErr (Ckpt n))} {lib : Lib}
    {q : Prob} (hb : Built o) (hf : Fresh o loaded) (hu : Uses env lib q)
    (hk : configKind o.params.solverConfig ≠ o.params.solverType) (set : List (Sol n)) :
    (run env o loaded).result ≠ .ok set := by
  cases hr : Act.scatter env o with
  | error e =>
    rw [run_fresh env o loaded hf]
    unfold Act.body Act.stage1
    rw [if_neg (by simp), show Act.scatter env (started env o) = Act.scatter env o from rfl, hr]
    simp [finish]
  | ok r =>
    obtain ⟨e, h, _⟩ := C81_mismatch hb hf hu hk hr
    rw [h]; simp

theorem wrong_ok : (Opt.new Witness.lin { Witness.params 4 6 0 with solverType := .lbfgs }).toOption.isSome = true := by
  decide +kernel

/-- An optimizer for L-BFGS with the configuration of COBYLA. -/
def wrongOpt : Opt 1 := Witness.mk Witness.lin { Witness.params 4 6 0 with solverType := .lbfgs } wrong_ok

example : Built wrongOpt ∧ Fresh wrongOpt none ∧
    configKind wrongOpt.params.solverConfig ≠ wrongOpt.params.solverType ∧
    (Act.scatter idleEnv wrongOpt).toOption.isSome = true ∧
    (run idleEnv wrongOpt none).result = .error (.localSolver .invalidLBFGS) :=
  ⟨Witness.mk_built wrong_ok, Or.inl rfl, by decide +kernel, by decide +kernel, resultErr_iff (by decide +kernel)⟩

/-! ### C82: failing evaluations and COBYLA -/

/-- The answers of the runner have the dimension of the problem. -/
def KeepsDim (lib : Lib) (q : Prob) (n : Nat) : Prop := ∀ ty cfg (x : Pt n) s k,
  (solveWithTracking lib q ty cfg (vec x) true).result = .ok (s, k) → s.1.length = n

theorem solver_cobyla {p : Problem n} {lib : Lib} {q : Prob} (hv : Views p q) (hd : KeepsDim lib q n)
    (hlib : ∀ args, Persists q.constraints.length (lib.minimize args q.constraints.length))
    (m : Nat) (st fr fa xr : F64) (xa : Vec) (x : Pt n) :
    ∃ s, solver lib q .cobyla (.cobyla m st fr fa xr xa) x = .ok s := by
  obtain ⟨⟨s, k⟩, h⟩ := C64_cobyla_survives lib q m st fr fa xr xa (vec x) true (by rw [hv.bounds]; simp [vec])
    (by
      intro r hr
      rw [hv.bounds, List.mem_ofFn] at hr
      obtain ⟨i, rfl⟩ := hr
      simp) hlib
  obtain ⟨y, hy⟩ := rowPt_of_length (hd _ _ _ _ _ h)
  refine ⟨(⟨y, s.2⟩, k), ?_⟩
  unfold solver
  rw [h]
  unfold toSol
  dsimp only
  rw [hy]

/-- C82: with COBYLA, evaluations that fail during local searches never end a fresh run: whatever error a run
returns, it is not a local solver error, and every local search of the run returned a solution. -/
theorem C82_cobyla {env : Env n} {o : Opt n} {loaded : Option (Except CkErr (Ckpt n))} {lib : Lib} {q : Prob}
    (hb : Built o) (hf : Fresh o loaded) (hv : Views o.problem q) (hu : Uses env lib q) (hd : KeepsDim lib q n)
    (hc : Completes env o.params.iterations)
    (hty : o.params.solverType = .cobyla) (hcfg : configKind o.params.solverConfig = .cobyla)
    (hlib : ∀ args, Persists q.constraints.length (lib.minimize args q.constraints.length)) :
    (∀ e, (run env o loaded).result ≠ .error (.localSolver e)) ∧
      ∀ it x r, Event.search it x r ∈ (run env o loaded).final.trace → ∃ s, r = .ok s := by
  have key : ∀ it x r, Event.search it x r ∈ (run env o loaded).final.trace → ∃ s, r = .ok s := by
    intro it x r hm
    rw [run_fresh env o loaded hf, finish_final] at hm
    have hg : r = (env.solve o.lsType o.lsConfig x).map Prod.fst ∨
        r = (env.solve o.params.solverType o.params.solverConfig x).map Prod.fst :=
      (Steps.body env false ⟨started env o, 0, 0, []⟩).genuine _ hm
    rw [hb.unused.lsType, hb.unused.lsConfig, or_self, hu, hty] at hg
    cases hsc : o.params.solverConfig with
    | cobyla m st fr fa xr xa =>
      obtain ⟨s, hs⟩ := solver_cobyla hv hd hlib m st fr fa xr xa x
      rw [hsc, hs] at hg
      exact ⟨s.1, hg⟩
    | _ => rw [hsc] at hcfg; cases hcfg
  refine ⟨fun e he => ?_, key⟩
  rcases (C31_errors_partial hf hc).1 _ he with ⟨_, x, hx | hx⟩ | ⟨it, p, x, hm, _⟩ | ⟨_, hx | ⟨_, hx⟩ | hx⟩
  · cases hx
  · cases hx
  · obtain ⟨s, hs⟩ := key it p _ hm
    cases hs
  · cases hx
  · cases hx
  · cases hx

/-- C82 for resumed runs: a resumed run whose optimizer and checkpoint both name COBYLA returns no local solver
error either. -/
theorem C82_cobyla_resumed {env : Env n} {o : Opt n} {loaded : Option (Except CkErr (Ckpt n))} {c : Ckpt n}
    {lib : Lib} {q : Prob} (hr : Resumes o loaded c) (hv : Views o.problem q) (hu : Uses env lib q)
    (hd : KeepsDim lib q n) (hc : Completes env c.params.iterations)
    (hty : o.lsType = .cobyla) (hcfg : configKind o.lsConfig = .cobyla)
    (htyc : c.params.solverType = .cobyla) (hcfgc : configKind c.params.solverConfig = .cobyla)
    (hlib : ∀ args, Persists q.constraints.length (lib.minimize args q.constraints.length)) :
    (∀ e, (run env o loaded).result ≠ .error (.localSolver e)) ∧
      ∀ it x r, Event.search it x r ∈ (run env o loaded).final.trace → ∃ s, r = .ok s := by
  have hsolve : ∀ cfg x, configKind cfg = .cobyla → ∃ s, (env.solve .cobyla cfg x).map Prod.fst = .ok s := by
    intro cfg x hk
    rw [hu]
    cases cfg with
    | cobyla m st fr fa xr xa =>
      obtain ⟨s, hs⟩ := solver_cobyla hv hd hlib m st fr fa xr xa x
      exact ⟨s.1, by rw [hs]; rfl⟩
    | _ => cases hk
  have key : ∀ it x r, Event.search it x r ∈ (run env o loaded).final.trace → ∃ s, r = .ok s := by
    intro it x r hm
    rw [run_resumes env o loaded hr, finish_final] at hm
    have hg : r = (env.solve o.lsType o.lsConfig x).map Prod.fst ∨
        r = (env.solve c.params.solverType c.params.solverConfig x).map Prod.fst :=
      (Steps.body env true ⟨(started env o).restore c, 0, 0, []⟩).genuine _ hm
    rw [hty, htyc] at hg
    rcases hg with rfl | rfl
    · exact hsolve _ _ hcfg
    · exact hsolve _ _ hcfgc
  refine ⟨fun e he => ?_, key⟩
  rcases (C31_errors_resumed hr hc).1 _ he with ⟨it, p, x, hm, _⟩ | ⟨_, _, _, _, _, hx⟩ | hx | ⟨_, hx⟩ | hx
  · obtain ⟨s, hs⟩ := key it p _ hm
    cases hs
  all_goals cases hx

theorem idle_persists : ∀ args, Persists linProb.constraints.length
    (idleLib.minimize args linProb.constraints.length) := fun _ => .cost _ _ fun _ => .done _ _

theorem idle_keepsDim (q : Prob) (n : Nat) (hq : q.constraints = []) : KeepsDim idleLib q n := by
  intro ty cfg x s k h
  by_cases hc : ty = .cobyla
  · subst hc
    have hin : ∀ args, InRange q.constraints.length (idleLib.minimize args q.constraints.length) :=
      fun _ => .cost _ _ fun _ => .done _ _
    rcases C80_cobyla idleLib q cfg (vec x) hin with ⟨e, _, he⟩ | ⟨args, e, ha, _, he⟩
    · rw [(he true).1] at h; cases h
    · obtain ⟨h1, h2⟩ := he true
      rw [h] at h2
      cases e with
      | answer y c =>
        cases h2
        have : y = args.x0 := by
          generalize (solveWithTracking _ _ _ _ _ _).2 = qs at h1
          cases h1 with
          | cost _ _ _ _ _ _ h1 => cases h1; rfl
          | costFails _ _ _ _ _ _ h1 => cases h1; rfl
        rw [this, ha, vec_length]
      | _ => cases h2
  · obtain ⟨h1, _⟩ := C80_reported idleLib q ty cfg (vec x) true hc
    obtain ⟨calls, start, hb, ht⟩ := h1 s.1 s.2 k h
    have : start = some s.1 := by
      generalize (solveWithTracking _ _ _ _ _ _).2 = qs at ht
      cases ht with
      | cost _ _ _ _ _ _ h1 => cases h1; rfl
    rcases hb with hb | ⟨hb, _⟩
    · rw [hb] at this
      rw [← Option.some.inj this]
      exact vec_length x
    · rw [hb] at this; cases this

/-- The objective of `lin` failing at 2, and as the runner sees it. -/
def gap : Problem 1 := { Witness.lin with
  objective := fun p => if p 0 = Witness.num 2 then .error ⟨7⟩ else .ok (p 0) }

def gapProb : Prob := { linProb with
  objective := fun
    | [x] => if x = Witness.num 2 then .error ⟨7⟩ else .ok x
    | _ => .error ⟨0⟩ }

/-- Solvers that look at 2 first and then return to the start. -/
def peekLib : Lib := { idleLib with
  minimize := fun c _ => .cost [Witness.num 2] fun _ => .cost c.x0 fun v => .done c.x0 v
  run := fun _ p _ => .cost [Witness.num 2] fun _ => .cost (p.getD []) fun v => .done p v }

theorem gap_ok : (Opt.new gap (Witness.params 4 6 0)).toOption.isSome = true := by decide +kernel
theorem gap_sd_ok : (Opt.new gap { Witness.params 4 6 0 with
    solverType := .steepestDescent
    solverConfig := .steepestDescent 5 (.moreThuente F64.one F64.one F64.one [F64.zero, F64.one])
    }).toOption.isSome = true := by decide +kernel

/-- With COBYLA the run succeeds although every local search meets a failing evaluation; with steepest descent
the same run fails. -/
example : Views gap gapProb ∧ Built (Witness.mk gap _ gap_ok) ∧
    (∀ args, Persists gapProb.constraints.length (peekLib.minimize args gapProb.constraints.length)) ∧
    Witness.succeeds (run (Witness.env (solver peekLib gapProb)) (Witness.mk gap _ gap_ok) none) = true ∧
    (run (Witness.env (solver peekLib gapProb)) (Witness.mk gap _ gap_sd_ok) none).result =
      .error (.localSolver .runFailed) :=
  ⟨⟨fun _ => rfl, rfl, fun _ => rfl⟩, Witness.mk_built gap_ok,
    fun _ => .cost _ _ fun _ => .cost _ _ fun _ => .done _ _, by decide +kernel,
    resultErr_iff (by decide +kernel)⟩

/-- The hypotheses of `C82_cobyla` hold together. -/
example : Built Witness.demo ∧ Fresh Witness.demo none ∧ Views Witness.demo.problem linProb ∧
    Uses idleEnv idleLib linProb ∧ KeepsDim idleLib linProb 1 ∧
    Completes idleEnv Witness.demo.params.iterations ∧ Witness.demo.params.solverType = .cobyla ∧
    configKind Witness.demo.params.solverConfig = .cobyla :=
  ⟨Witness.demo_built, Or.inl rfl, Witness.demo_problem ▸ lin_views, rfl, idle_keepsDim _ _ rfl,
    env_completes _ (by decide +kernel), by decide +kernel, by decide +kernel⟩

/-! ### C83: returned objective values -/

/-- The solvers report the value they obtained at the point they return: argmin solvers the objective value,
COBYLA that or `+∞` where the objective fails. -/
structure Honest (lib : Lib) (q : Prob) : Prop where
  argmin : ∀ calls start m qs x c, Talk q (lib.run calls start m) qs (.answer x c) → q.objective x = .ok c
  cobyla : ∀ args qs x c, CTalk q (lib.minimize args q.constraints.length) qs (.answer x c) →
    q.objective x = .ok c ∨ ((∃ e, q.objective x = .error e) ∧ c = F64.inf)
  range : ∀ args, InRange q.constraints.length (lib.minimize args q.constraints.length)

theorem solver_honest {p : Problem n} {lib : Lib} {q : Prob} (hv : Views p q) (hh : Honest lib q)
    {ty : SolverType} {cfg : SolverConfig} {x : Pt n} {s : Sol n} {k : Nat}
    (h : solver lib q ty cfg x = .ok (s, k)) :
    p.objective s.point = .ok s.objective ∨
      (ty = .cobyla ∧ (∃ e, p.objective s.point = .error e) ∧ s.objective = F64.inf) := by
  have hs := solver_ok h
  rw [← hv.objective]
  by_cases hc : ty = .cobyla
  · subst hc
    rcases C80_cobyla lib q cfg (vec x) hh.range with ⟨e, _, he⟩ | ⟨args, e, _, _, he⟩
    · rw [(he true).1] at hs; cases hs
    · obtain ⟨h1, h2⟩ := he true
      rw [hs] at h2
      cases e with
      | answer y c =>
        cases h2
        rcases hh.cobyla _ _ _ _ h1 with h | ⟨h, h'⟩
        · exact Or.inl h
        · exact Or.inr ⟨rfl, h, h'⟩
      | _ => cases h2
  · obtain ⟨h1, _⟩ := C80_reported lib q ty cfg (vec x) true hc
    obtain ⟨calls, start, _, ht⟩ := h1 _ _ k hs
    exact Or.inl (hh.argmin _ _ _ _ _ _ ht)

/-- C83: if the solvers report the values they obtained, every returned solution carries the objective value of
its point; with COBYLA a solution at which the objective fails carries `+∞`. -/
theorem C83_values {env : Env n} {o : Opt n} {loaded : Option (Except CkErr (Ckpt n))} {lib : Lib} {q : Prob}
    {set : List (Sol n)} (hb : Built o) (hf : Fresh o loaded) (hv : Views o.problem q) (hu : Uses env lib q)
    (hh : Honest lib q) (h : (run env o loaded).result = .ok set) :
    ∀ s ∈ set, o.problem.objective s.point = .ok s.objective ∨
      (o.params.solverType = .cobyla ∧ (∃ e, o.problem.objective s.point = .error e) ∧
        s.objective = F64.inf) := by
  intro s hs
  obtain ⟨p, k, hp⟩ := C05_members hb hf h s hs
  rw [hu] at hp
  exact solver_honest hv hh hp

/-- C83 for resumed runs: also if the checkpoint's solutions carried their objective values. -/
theorem C83_values_resumed {env : Env n} {o : Opt n} {loaded : Option (Except CkErr (Ckpt n))} {c : Ckpt n}
    {lib : Lib} {q : Prob} {set : List (Sol n)} (hr : Resumes o loaded c) (hne : c.solutionSet ≠ some [])
    (hv : Views o.problem q) (hu : Uses env lib q) (hh : Honest lib q)
    (hc : ∀ l, c.solutionSet = some l → ∀ s ∈ l, o.problem.objective s.point = .ok s.objective)
    (h : (run env o loaded).result = .ok set) :
    ∀ s ∈ set, o.problem.objective s.point = .ok s.objective ∨
      ((o.lsType = .cobyla ∨ c.params.solverType = .cobyla) ∧
        (∃ e, o.problem.objective s.point = .error e) ∧ s.objective = F64.inf) := by
  intro s hs
  rcases C05_members_resumed hr hne h s hs with ⟨p, k, hp⟩ | ⟨p, k, hp⟩ | ⟨l, hl, hm⟩
  · rw [hu] at hp
    rcases solver_honest hv hh hp with h | ⟨h1, h2⟩
    · exact Or.inl h
    · exact Or.inr ⟨Or.inl h1, h2⟩
  · rw [hu] at hp
    rcases solver_honest hv hh hp with h | ⟨h1, h2⟩
    · exact Or.inl h
    · exact Or.inr ⟨Or.inr h1, h2⟩
  · exact Or.inl (hc l hl s hm)

theorem idle_honest (q : Prob) : Honest idleLib q where
  argmin calls start m qs x c h := by
    cases h with
    | cost _ _ v _ _ hv h => cases h; exact hv
  cobyla args qs x c h := by
    cases h with
    | cost _ _ v _ _ hv h => cases h; exact Or.inl hv
    | costFails _ _ e _ _ he h => cases h; exact Or.inr ⟨⟨e, he⟩, rfl⟩
  range := fun _ => .cost _ _ fun _ => .done _ _

example : Built Witness.demo ∧ Fresh Witness.demo none ∧ Views Witness.demo.problem linProb ∧
    Uses idleEnv idleLib linProb ∧ Honest idleLib linProb ∧
    Witness.succeeds (run idleEnv Witness.demo none) = true :=
  ⟨Witness.demo_built, Or.inl rfl, Witness.demo_problem ▸ lin_views, rfl, idle_honest _, by decide +kernel⟩

/-- Solvers that always go to 2. -/
def jumpLib : Lib := { idleLib with
  minimize := fun _ _ => .cost [Witness.num 2] fun v => .done [Witness.num 2] v }

/-- The second case of C83 occurs: a run returns a point at which the objective fails, with the value `+∞`. -/
theorem C83_failed_point_returned :
    Honest jumpLib gapProb ∧ Views gap gapProb ∧ Built (Witness.mk gap _ gap_ok) ∧
      (∃ e, gap.objective (Witness.pt (Witness.num 2)) = .error e) ∧
      (run (Witness.env (solver jumpLib gapProb)) (Witness.mk gap _ gap_ok) none).result.toOption.map
        (fun l => l.map fun s => (s.point 0, s.objective)) = some [(Witness.num 2, F64.inf)] := by
  refine ⟨⟨fun calls start m qs x c h => ?_, fun args qs x c h => ?_, fun _ => .cost _ _ fun _ => .done _ _⟩,
    ⟨fun _ => rfl, rfl, fun _ => rfl⟩, Witness.mk_built gap_ok, ⟨⟨7⟩, by simp [gap, Witness.pt]⟩, by decide +kernel⟩
  · cases h with
    | cost _ _ v _ _ hv h => cases h; exact hv
  · cases h with
    | cost _ _ v _ _ hv h => cases h; exact Or.inl hv
    | costFails _ _ e _ _ he h => cases h; exact Or.inr ⟨⟨e, he⟩, rfl⟩

/-! ### C84: counted evaluations -/

/-- The evaluations of the user's functions made by an event of stage 2. -/
def asked (lib : Lib) (q : Prob) (ty : SolverType) (cfg : SolverConfig) : Event n → List Query
  | .evaluate _ p => [.cost (vec p)]
  | .search (some _) p _ => (solveWithTracking lib q ty cfg (vec p) true).queries
  | _ => []

theorem objectiveCalls_append (a b : List Query) : objectiveCalls (a ++ b) = objectiveCalls a + objectiveCalls b := by
  induction a with
  | nil => simp [objectiveCalls]
  | cons x a ih => cases x <;> simp [objectiveCalls, ih, Nat.add_comm, Nat.add_left_comm]

/-- If the local solver is the local solver runner and no search failed, the evaluations of the events are the
calls of the user's objective. -/
theorem evals_asked {env : Env n} {o : Opt n} {lib : Lib} {q : Prob} (hb : Built o) (hu : Uses env lib q)
    (t : List (Event n)) (hgen : ∀ e ∈ t, e.Genuine env o)
    (hok : ∀ it p x, Event.search it p (.error x) ∈ t → False) :
    evalsOf env o.params.solverType o.params.solverConfig t =
      objectiveCalls (t.flatMap (asked lib q o.params.solverType o.params.solverConfig)) := by
  induction t with
  | nil => rfl
  | cons e t ih =>
    rw [show e :: t = [e] ++ t from rfl, evalsOf_append, List.flatMap_append, objectiveCalls_append,
      ih (fun x hx => hgen x (by simp [hx])) (fun it p x hx => hok it p x (by simp [hx]))]
    congr 1
    have hg := hgen e (by simp)
    have hs := fun it p x (he : e = Event.search it p (.error x)) => hok it p x (he ▸ List.mem_cons_self)
    cases e with
    | evaluate it p => rfl
    | search it p r =>
      cases it with
      | none => rfl
      | some it =>
        have hg : r = (env.solve o.lsType o.lsConfig p).map Prod.fst ∨
          r = (env.solve o.params.solverType o.params.solverConfig p).map Prod.fst := hg
        rw [hb.unused.lsType, hb.unused.lsConfig, or_self] at hg
        cases hx : env.solve o.params.solverType o.params.solverConfig p with
        | error e =>
          rw [hx] at hg
          exact (hs (some it) p e (by rw [hg]; rfl)).elim
        | ok r' =>
          obtain ⟨s0, k⟩ := r'
          have h1 : evalsOf env o.params.solverType o.params.solverConfig [Event.search (some it) p r] = k := by
            simp [evalsOf, workCost, hx]
          rw [h1]
          rw [hu] at hx
          have := C63_count lib q _ _ _ true _ _ (solver_ok hx)
          simpa [asked] using this
    | _ => rfl

/-- C84: after a successful sequential run, the objective evaluations shown for stage 2 are the calls of the
user's objective made by stage 2 and its local searches. -/
theorem C84_evaluations {env : Env n} {o : Opt n} {loaded : Option (Except CkErr (Ckpt n))} {b : Obs n}
    {s : Stage2 n} {set : List (Sol n)} {lib : Lib} {q : Prob} (ht : Tame env) (hw : Watches2 o b s)
    (hfr : Fresh o loaded) (hq : Sequential env o 0) (hc : Completes env o.params.iterations)
    (hb : Built o) (hu : Uses env lib q)
    (hr : (run env o loaded).result = .ok set) :
    ∃ b' s', (run env o loaded).final.opt.obs = some b' ∧ b'.stage2 = some s' ∧
      s'.functionEvaluations = s.functionEvaluations + objectiveCalls ((run env o loaded).final.trace.flatMap
        (asked lib q o.params.solverType o.params.solverConfig)) := by
  obtain ⟨b', s', h1, h2, _, h3, _⟩ := C55_sequential ht hw hfr hq hr
  refine ⟨b', s', h1, h2, h3.trans ?_⟩
  congr 1
  have hgen : ∀ e ∈ (run env o loaded).final.trace, e.Genuine env o := by
    rw [run_fresh env o loaded hfr, finish_final]
    exact (Steps.body env false ⟨started env o, 0, 0, []⟩).genuine
  have hok := ((C31_errors_partial hfr hc).2 set hr).2
  rw [hb.unused.lsType, hb.unused.lsConfig]
  exact evals_asked hb hu _ hgen hok

example : Tame idleEnv ∧ Built (Witness.demoSeq.addObserver watcher) ∧
    Watches2 (Witness.demoSeq.addObserver watcher) watcher Stage2.new ∧
    Sequential idleEnv (Witness.demoSeq.addObserver watcher) 0 ∧
    Completes idleEnv (Witness.demoSeq.addObserver watcher).params.iterations ∧
    Witness.succeeds (run idleEnv (Witness.demoSeq.addObserver watcher) none) = true :=
  ⟨env_tame _, Built.observer _ Witness.demoSeq_built, ⟨rfl, by decide, rfl, rfl⟩, Or.inl rfl,
    env_completes _ (by decide +kernel), by decide +kernel⟩

end GS.Props
