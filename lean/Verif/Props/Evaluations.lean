/- C106: with argmin solvers, failing and missing evaluations inside local searches are reported. -/
import Verif.Props.EndToEnd

namespace GS.Props
open GS GS.Runner
variable {n : Nat}

/-- The user's problem answers the question. -/
def Answered (p : Prob) : Query → Prop
  | .cost x => ∃ v, p.objective x = .ok v
  | .gradient x => ∃ v, p.gradient x = .ok v
  | .hessian x => ∃ v, p.hessian x = .ok v
  | .constraint i _ => ∃ g, p.constraints[i]? = some g

theorem talk_answered {p : Prob} {t : Tree} {qs : List Query} {e : Ending} (h : Talk p t qs e) :
    (e ≠ .evaluationFailed → ∀ q ∈ qs, Answered p q) ∧
      (∀ pre q post, qs = pre ++ q :: post → ¬ Answered p q → e = .evaluationFailed ∧ post = []) := by
  have fails : ∀ q0 : Query, ¬ Answered p q0 →
      ((Ending.evaluationFailed ≠ .evaluationFailed → ∀ q ∈ [q0], Answered p q) ∧
      (∀ pre q post, [q0] = pre ++ q :: post → ¬ Answered p q →
        Ending.evaluationFailed = .evaluationFailed ∧ post = [])) := by
    intro q0 _
    refine ⟨fun hne => absurd rfl hne, fun pre q post he _ => ⟨rfl, ?_⟩⟩
    cases pre with
    | nil => cases he; rfl
    | cons a l => simp at he
  have extends' : ∀ (q0 : Query) (qs : List Query) (e : Ending), Answered p q0 →
      ((e ≠ .evaluationFailed → ∀ q ∈ qs, Answered p q) ∧
        (∀ pre q post, qs = pre ++ q :: post → ¬ Answered p q → e = .evaluationFailed ∧ post = [])) →
      ((e ≠ .evaluationFailed → ∀ q ∈ q0 :: qs, Answered p q) ∧
        (∀ pre q post, q0 :: qs = pre ++ q :: post → ¬ Answered p q → e = .evaluationFailed ∧ post = [])) := by
    intro q0 qs e h0 ih
    refine ⟨fun hne q hq => ?_, fun pre q post he hn => ?_⟩
    · rcases List.mem_cons.1 hq with rfl | hq
      · exact h0
      · exact ih.1 hne q hq
    · cases pre with
      | nil => cases he; exact absurd h0 hn
      | cons a l =>
        cases he
        exact ih.2 l q post rfl hn
  induction h with
  | answer x c => exact ⟨fun _ q hq => (by cases hq), fun pre q post he => (by simp at he)⟩
  | nothing c => exact ⟨fun _ q hq => (by cases hq), fun pre q post he => (by simp at he)⟩
  | gaveUp => exact ⟨fun _ q hq => (by cases hq), fun pre q post he => (by simp at he)⟩
  | cost x f v q e hv _ ih => exact extends' _ _ _ ⟨v, hv⟩ ih
  | costFails x f err he => exact fails _ (by rintro ⟨v, hv⟩; rw [he] at hv; cases hv)
  | gradient x f v q e hv _ ih => exact extends' _ _ _ ⟨v, hv⟩ ih
  | gradientFails x f err he => exact fails _ (by rintro ⟨v, hv⟩; rw [he] at hv; cases hv)
  | hessian x f v q e hv _ ih => exact extends' _ _ _ ⟨v, hv⟩ ih
  | hessianFails x f err he => exact fails _ (by rintro ⟨v, hv⟩; rw [he] at hv; cases hv)

/-- C106: a local search with an argmin solver that reports a solution, no solution or an unusable configuration
had all its questions answered; as soon as one evaluation fails the search ends, and reports `RunFailed`. -/
theorem C106_search (lib : Lib) (p : Prob) (ty : SolverType) (cfg : SolverConfig) (x0 : Vec) (track : Bool)
    (hc : ty ≠ .cobyla) :
    ((solveWithTracking lib p ty cfg x0 track).result ≠ .error .runFailed →
      ∀ q ∈ (solveWithTracking lib p ty cfg x0 track).queries, Answered p q) ∧
    ∀ pre q post, (solveWithTracking lib p ty cfg x0 track).queries = pre ++ q :: post → ¬ Answered p q →
      (solveWithTracking lib p ty cfg x0 track).result = .error .runFailed ∧ post = [] := by
  rcases C80_argmin lib p ty cfg x0 hc with ⟨e, _, he⟩ | ⟨calls, start, e, _, h⟩
  · rw [(he track).2]
    exact ⟨fun _ q hq => (by cases hq), fun pre q post he => (by simp at he)⟩
  · obtain ⟨h1, h2⟩ := h track
    obtain ⟨a1, a2⟩ := talk_answered h1
    refine ⟨fun hne => a1 fun hx => ?_, fun pre q post hq hn => ?_⟩
    · subst hx
      cases hr : (solveWithTracking lib p ty cfg x0 track).result with
      | ok s => rw [hr] at h2; cases h2
      | error e' =>
        rw [hr] at h2 hne
        cases h2
        exact hne rfl
    · obtain ⟨rfl, hp⟩ := a2 pre q post hq hn
      refine ⟨?_, hp⟩
      cases hr : (solveWithTracking lib p ty cfg x0 track).result with
      | ok s => rw [hr] at h2; cases h2
      | error e' => rw [hr] at h2; cases h2; rfl

theorem searched_answered {lib : Lib} {q : Prob} {ty : SolverType} {cfg : SolverConfig} {x : Pt n} {s : Sol n}
    (hty : ty ≠ .cobyla) (h : (solver lib q ty cfg x).map Prod.fst = .ok s) :
    ∀ c ∈ (solveWithTracking lib q ty cfg (vec x) true).queries, Answered q c := by
  refine (C106_search lib q ty cfg (vec x) true hty).1 fun he => ?_
  cases hs : solver lib q ty cfg x with
  | error e => rw [hs] at h; cases h
  | ok r =>
    have := solver_ok (s := r.1) (k := r.2) hs
    rw [he] at this
    cases this

/-- C106: if a fresh run with an argmin solver succeeds, every evaluation any of its local searches asked for
succeeded. -/
theorem C106_run {env : Env n} {o : Opt n} {loaded : Option (Except CkErr (Ckpt n))} {lib : Lib} {q : Prob}
    (hb : Built o) (hf : Fresh o loaded) (hu : Uses env lib q) (hc : Completes env o.params.iterations)
    (hty : o.params.solverType ≠ .cobyla) {set : List (Sol n)} (hok : (run env o loaded).result = .ok set) :
    ∀ it x r, Event.search it x r ∈ (run env o loaded).final.trace →
      ∀ c ∈ (solveWithTracking lib q o.params.solverType o.params.solverConfig (vec x) true).queries,
        Answered q c := by
  intro it x r hm
  have hg : r = (env.solve o.lsType o.lsConfig x).map Prod.fst ∨
      r = (env.solve o.params.solverType o.params.solverConfig x).map Prod.fst := by
    rw [run_fresh env o loaded hf, finish_final] at hm
    exact (Steps.body env false ⟨started env o, 0, 0, []⟩).genuine _ hm
  rw [hb.unused.lsType, hb.unused.lsConfig, or_self, hu] at hg
  cases r with
  | error e => exact absurd hm (((C31_errors_partial hf hc).2 set hok).2 it x e)
  | ok s => exact searched_answered hty hg.symm

/-- C106 for resumed runs; the local solver in force may be that of the optimizer or that of the checkpoint. -/
theorem C106_run_resumed {env : Env n} {o : Opt n} {loaded : Option (Except CkErr (Ckpt n))} {c : Ckpt n}
    {lib : Lib} {q : Prob} (hr : Resumes o loaded c) (hu : Uses env lib q)
    (hc : Completes env c.params.iterations) (hty : o.lsType ≠ .cobyla) (htyc : c.params.solverType ≠ .cobyla)
    {set : List (Sol n)} (hok : (run env o loaded).result = .ok set) :
    ∀ it x r, Event.search it x r ∈ (run env o loaded).final.trace →
      (∀ a ∈ (solveWithTracking lib q o.lsType o.lsConfig (vec x) true).queries, Answered q a) ∨
      (∀ a ∈ (solveWithTracking lib q c.params.solverType c.params.solverConfig (vec x) true).queries,
        Answered q a) := by
  intro it x r hm
  have hg : r = (env.solve o.lsType o.lsConfig x).map Prod.fst ∨
      r = (env.solve c.params.solverType c.params.solverConfig x).map Prod.fst := by
    rw [run_resumes env o loaded hr, finish_final] at hm
    exact (Steps.body env true ⟨(started env o).restore c, 0, 0, []⟩).genuine _ hm
  rw [hu] at hg
  cases r with
  | error e => exact absurd hm (((C31_errors_resumed hr hc).2 set hok).1 it x e)
  | ok s =>
    rcases hg with hg | hg
    · exact Or.inl (searched_answered hty hg.symm)
    · exact Or.inr (searched_answered htyc hg.symm)

/-- C106: a problem without gradient (or Hessian) and a solver that asks for one: the run fails with `RunFailed` in
its first local search, and stores nothing. -/
theorem C106_missing_derivative {env : Env n} {o : Opt n} {loaded : Option (Except CkErr (Ckpt n))} {lib : Lib}
    {q : Prob} (hb : Built o) (hf : Fresh o loaded) (hu : Uses env lib q)
    (hty : o.params.solverType ≠ .cobyla) {r : Scatter.Result n} (hr : Act.scatter env o = .ok r) {y : Vec}
    (hask : (q.gradient = defaultGradient ∧ Query.gradient y ∈
        (solveWithTracking lib q o.params.solverType o.params.solverConfig (vec r.best) true).queries) ∨
      (q.hessian = defaultHessian ∧ Query.hessian y ∈
        (solveWithTracking lib q o.params.solverType o.params.solverConfig (vec r.best) true).queries)) :
    (run env o loaded).result = .error (.localSolver .runFailed) ∧
      (run env o loaded).final.opt.solset = none := by
  have hne : ∃ c ∈ (solveWithTracking lib q o.params.solverType o.params.solverConfig (vec r.best) true).queries,
      ¬ Answered q c := by
    rcases hask with ⟨hd, hq⟩ | ⟨hd, hq⟩
    · refine ⟨_, hq, ?_⟩
      rintro ⟨v, hv⟩
      rw [hd] at hv
      cases hv
    · refine ⟨_, hq, ?_⟩
      rintro ⟨v, hv⟩
      rw [hd] at hv
      cases hv
  obtain ⟨c, hcq, hn⟩ := hne
  obtain ⟨pre, post, hsplit⟩ := List.append_of_mem hcq
  have hres := ((C106_search lib q o.params.solverType o.params.solverConfig (vec r.best) true hty).2 pre c post
    hsplit hn).1
  have he : env.solve o.lsType o.lsConfig r.best = .error .runFailed := by
    rw [hu, hb.unused.lsType, hb.unused.lsConfig]
    unfold solver
    rw [hres]
    rfl
  obtain ⟨g1, g2, _⟩ := first_search_fails hf hr he
  exact ⟨g1, g2.trans hb.unused.solset⟩

/-! ### Examples -/

/-- The problem `lin` without derivatives. -/
def plainProb : Prob := { linProb with gradient := defaultGradient, hessian := defaultHessian,
                                       constraints := defaultConstraints }

/-- Solvers that evaluate the objective and the gradient at the starting point. -/
def slopeLib : Lib where
  accepts _ _ := true
  run _ p _ := .cost (p.getD []) fun v => .gradient (p.getD []) fun _ => .done p v
  minimize c _ := .cost c.x0 fun v => .done c.x0 v

/-- A configuration of steepest descent. -/
def steepest : SolverConfig := .steepestDescent 5 (.moreThuente F64.one F64.one F64.one [F64.zero, F64.one])

theorem slope_ok : (Opt.new Witness.lin { Witness.params 4 6 0 with
    solverType := .steepestDescent, solverConfig := steepest }).toOption.isSome = true := by
  decide +kernel

/-- An optimizer with steepest descent. -/
def slopeOpt : Opt 1 := Witness.mk Witness.lin { Witness.params 4 6 0 with
  solverType := .steepestDescent, solverConfig := steepest } slope_ok

/-- The demonstration environment with that solver, with and without a gradient. -/
def slopeEnv (q : Prob) : Env 1 := Witness.env (solver slopeLib q)

/-- Without a gradient the run fails, ... -/
example : Built slopeOpt ∧ Fresh slopeOpt none ∧ Uses (slopeEnv plainProb) slopeLib plainProb ∧
    slopeOpt.params.solverType ≠ .cobyla ∧
    (∃ r, Act.scatter (slopeEnv plainProb) slopeOpt = .ok r ∧ Query.gradient (vec r.best) ∈
      (solveWithTracking slopeLib plainProb slopeOpt.params.solverType slopeOpt.params.solverConfig (vec r.best)
        true).queries) ∧
    (run (slopeEnv plainProb) slopeOpt none).result = .error (.localSolver .runFailed) := by
  refine ⟨Witness.mk_built slope_ok, Or.inl rfl, rfl, by decide +kernel, ?_, resultErr_iff (by decide +kernel)⟩
  have h : (match Act.scatter (slopeEnv plainProb) slopeOpt with
    | .ok r => decide (Query.gradient (vec r.best) ∈ (solveWithTracking slopeLib plainProb
        slopeOpt.params.solverType slopeOpt.params.solverConfig (vec r.best) true).queries)
    | .error _ => false) = true := by decide +kernel
  split at h
  · rename_i r hr
    exact ⟨r, hr, of_decide_eq_true h⟩
  · cases h

/-- ... with one it succeeds. -/
example : Uses (slopeEnv linProb) slopeLib linProb ∧
    Witness.succeeds (run (slopeEnv linProb) slopeOpt none) = true :=
  ⟨rfl, by decide +kernel⟩

end GS.Props
