/- What a local search returns (C80): exactly what the solver ended with. -/
import Verif.Props.Runner

namespace GS.Props
open GS GS.Runner

/-! ### Specification: a conversation between a solver and the user's problem -/

/-- How a conversation ends. -/
inductive Ending where
  /-- the solver has a best point and its cost -/
  | answer (x : Vec) (c : F64)
  /-- the solver ends without a best point -/
  | nothing
  /-- the solver itself fails -/
  | gaveUp
  /-- an evaluation of the problem failed -/
  | evaluationFailed

/-- An argmin solver asks for evaluations of the problem, is given its answers, and ends; the list holds the
questions in order. -/
inductive Talk (p : Prob) : Tree → List Query → Ending → Prop
  | answer (x c) : Talk p (.done (some x) c) [] (.answer x c)
  | nothing (c) : Talk p (.done none c) [] .nothing
  | gaveUp : Talk p .fail [] .gaveUp
  | cost (x f v q e) : p.objective x = .ok v → Talk p (f v) q e → Talk p (.cost x f) (.cost x :: q) e
  | costFails (x f err) : p.objective x = .error err → Talk p (.cost x f) [.cost x] .evaluationFailed
  | gradient (x f v q e) : p.gradient x = .ok v → Talk p (f v) q e →
      Talk p (.gradient x f) (.gradient x :: q) e
  | gradientFails (x f err) : p.gradient x = .error err →
      Talk p (.gradient x f) [.gradient x] .evaluationFailed
  | hessian (x f v q e) : p.hessian x = .ok v → Talk p (f v) q e → Talk p (.hessian x f) (.hessian x :: q) e
  | hessianFails (x f err) : p.hessian x = .error err →
      Talk p (.hessian x f) [.hessian x] .evaluationFailed

/-- COBYLA asks for objective and constraint values; a failing objective is answered with `+∞`. -/
inductive CTalk (p : Prob) : CTree → List Query → Ending → Prop
  | answer (x c) : CTalk p (.done x c) [] (.answer x c)
  | gaveUp : CTalk p .fail [] .gaveUp
  | cost (x f v q e) : p.objective x = .ok v → CTalk p (f v) q e → CTalk p (.cost x f) (.cost x :: q) e
  | costFails (x f err q e) : p.objective x = .error err → CTalk p (f F64.inf) q e →
      CTalk p (.cost x f) (.cost x :: q) e
  | constraint (i x f g q e) : p.constraints[i]? = some g → CTalk p (f (g x)) q e →
      CTalk p (.constraint i x f) (.constraint i x :: q) e

/-- What the caller is told. -/
def Ending.told : Ending → Except LErr (Vec × F64)
  | .answer x c => .ok (x, c)
  | .nothing => .error .noSolution
  | .gaveUp => .error .runFailed
  | .evaluationFailed => .error .runFailed

/-- COBYLA only asks for constraints that exist. -/
inductive InRange (m : Nat) : CTree → Prop
  | done (x c) : InRange m (.done x c)
  | fail : InRange m .fail
  | cost (x f) : (∀ v, InRange m (f v)) → InRange m (.cost x f)
  | constraint (i x f) : i < m → (∀ v, InRange m (f v)) → InRange m (.constraint i x f)

theorem exec_talk (p : Prob) (t : Tree) (k : Option Nat) :
    ∃ e, Talk p t (t.exec p k).2.2 e ∧ (t.exec p k).1 = e.told := by
  induction t generalizing k with
  | done b c =>
    cases b with
    | none => exact ⟨_, .nothing c, rfl⟩
    | some x => exact ⟨_, .answer x c, rfl⟩
  | fail => exact ⟨_, .gaveUp, rfl⟩
  | cost x f ih =>
    unfold Tree.exec
    cases h : p.objective x with
    | error err => exact ⟨_, .costFails x f err h, rfl⟩
    | ok v =>
      obtain ⟨e, h1, h2⟩ := ih v (k.map (· + 1))
      exact ⟨e, .cost x f v _ e h h1, h2⟩
  | gradient x f ih =>
    unfold Tree.exec
    cases h : p.gradient x with
    | error err => exact ⟨_, .gradientFails x f err h, rfl⟩
    | ok v =>
      obtain ⟨e, h1, h2⟩ := ih v k
      exact ⟨e, .gradient x f v _ e h h1, h2⟩
  | hessian x f ih =>
    unfold Tree.exec
    cases h : p.hessian x with
    | error err => exact ⟨_, .hessianFails x f err h, rfl⟩
    | ok v =>
      obtain ⟨e, h1, h2⟩ := ih v k
      exact ⟨e, .hessian x f v _ e h h1, h2⟩

theorem cexec_talk (p : Prob) (t : CTree) (k : Option Nat) (ht : InRange p.constraints.length t) :
    ∃ e, CTalk p t (t.exec p k).2.2 e ∧ (t.exec p k).1 = e.told := by
  induction ht generalizing k with
  | done x c => exact ⟨_, .answer x c, rfl⟩
  | fail => exact ⟨_, .gaveUp, rfl⟩
  | cost x f _ ih =>
    unfold CTree.exec
    cases h : p.objective x with
    | error err =>
      have hc : cobylaCost p x = F64.inf := by unfold cobylaCost; rw [h]
      obtain ⟨e, h1, h2⟩ := ih F64.inf (k.map (· + 1))
      rw [hc]
      exact ⟨e, .costFails x f err _ e h h1, h2⟩
    | ok v =>
      have hc : cobylaCost p x = v := by unfold cobylaCost; rw [h]
      obtain ⟨e, h1, h2⟩ := ih v (k.map (· + 1))
      rw [hc]
      exact ⟨e, .cost x f v _ e h h1, h2⟩
  | constraint i x f hi _ ih =>
    unfold CTree.exec
    have h : p.constraints[i]? = some p.constraints[i] := List.getElem?_eq_getElem hi
    obtain ⟨e, h1, h2⟩ := ih (p.constraints[i] x) k
    rw [h]
    exact ⟨e, .constraint i x f _ _ e h h1, h2⟩

/-- The conversation is determined by the problem. -/
theorem talk_unique {p : Prob} {t : Tree} {q q' : List Query} {e e' : Ending} (h : Talk p t q e)
    (h' : Talk p t q' e') : q = q' ∧ e = e' := by
  induction h generalizing q' e' with
  | answer x c => cases h'; exact ⟨rfl, rfl⟩
  | nothing c => cases h'; exact ⟨rfl, rfl⟩
  | gaveUp => cases h'; exact ⟨rfl, rfl⟩
  | cost x f v q e hv _ ih =>
    cases h' with
    | cost _ _ v' q' e' hv' ht =>
      rw [hv] at hv'
      cases hv'
      obtain ⟨rfl, rfl⟩ := ih ht
      exact ⟨rfl, rfl⟩
    | costFails _ _ err he => rw [hv] at he; cases he
  | costFails x f err he =>
    cases h' with
    | cost _ _ v' q' e' hv' ht => rw [he] at hv'; cases hv'
    | costFails => exact ⟨rfl, rfl⟩
  | gradient x f v q e hv _ ih =>
    cases h' with
    | gradient _ _ v' q' e' hv' ht =>
      rw [hv] at hv'
      cases hv'
      obtain ⟨rfl, rfl⟩ := ih ht
      exact ⟨rfl, rfl⟩
    | gradientFails _ _ err he => rw [hv] at he; cases he
  | gradientFails x f err he =>
    cases h' with
    | gradient _ _ v' q' e' hv' ht => rw [he] at hv'; cases hv'
    | gradientFails => exact ⟨rfl, rfl⟩
  | hessian x f v q e hv _ ih =>
    cases h' with
    | hessian _ _ v' q' e' hv' ht =>
      rw [hv] at hv'
      cases hv'
      obtain ⟨rfl, rfl⟩ := ih ht
      exact ⟨rfl, rfl⟩
    | hessianFails _ _ err he => rw [hv] at he; cases he
  | hessianFails x f err he =>
    cases h' with
    | hessian _ _ v' q' e' hv' ht => rw [he] at hv'; cases hv'
    | hessianFails => exact ⟨rfl, rfl⟩

/-! ### C80 -/

/-- The iteration limit of a configuration. -/
def iterationLimit : SolverConfig → Nat
  | .lbfgs m .. => m
  | .nelderMead _ _ m .. => m
  | .steepestDescent m _ => m
  | .trustRegion _ m .. => m
  | .newtonCG m .. => m
  | .cobyla m .. => m

/-- The solver begins at `x0`: it is given `x0` as its parameter, or (Nelder-Mead) a simplex whose first vertex
is `x0`. -/
def BeginsAt (x0 : Vec) (calls : List Call) (start : Option Vec) : Prop :=
  start = some x0 ∨ (start = none ∧ ∃ vs, .nelderMead (x0 :: vs) ∈ calls)

/-- Errors by which a search is refused: a bad configuration (or a panic on a malformed one). -/
def Refusal (e : LErr) : Prop := e ≠ .noSolution ∧ e ≠ .runFailed

theorem setup_refusal {lib : Lib} {ty : SolverType} {x0 : Vec} {cfg : SolverConfig} {e : LErr}
    (h : setup lib ty x0 cfg = .error e) : Refusal e := by
  have key : e = invalid ty ∨ e = .panicked ∨ e = .invalidSteepestDescent := by
    by_cases hty : ty = .newtonCG
    · subst hty
      cases cfg with
      | newtonCG m cu tl ls =>
        cases ls with
        | moreThuente =>
          rcases bind_error h with h | ⟨_, _, h⟩
          · rcases lineSearch_error h with h | h
            · exact Or.inr (Or.inr h)
            · exact Or.inr (Or.inl h)
          rcases bind_error h with h | ⟨_, _, h⟩
          · exact Or.inl (step_error h)
          cases h
        | hagerZhang =>
          rcases bind_error h with h | ⟨_, _, h⟩
          · rcases lineSearch_error h with h | h
            · exact Or.inr (Or.inr h)
            · exact Or.inr (Or.inl h)
          cases h
      | _ => cases h; exact Or.inl rfl
    · rcases setup_error hty h with h | h
      · exact Or.inl h
      · exact Or.inr (Or.inl h)
  rcases key with rfl | rfl | rfl
  · cases ty <;> exact ⟨by decide, by decide⟩
  · exact ⟨by decide, by decide⟩
  · exact ⟨by decide, by decide⟩

/-- C80: a local search with an argmin solver either is refused before any evaluation, or is one conversation of
the configured solver, started at the given point with the configured iteration limit, with the user's problem;
the caller is told exactly how it ended, whether or not evaluations are tracked. -/
theorem C80_argmin (lib : Lib) (p : Prob) (ty : SolverType) (cfg : SolverConfig) (x0 : Vec) (hc : ty ≠ .cobyla) :
    (∃ e, Refusal e ∧ ∀ track, (solveWithTracking lib p ty cfg x0 track).result = .error e ∧
        (solveWithTracking lib p ty cfg x0 track).queries = []) ∨
      ∃ calls start e, BeginsAt x0 calls start ∧ ∀ track,
        Talk p (lib.run calls start (iterationLimit cfg)) (solveWithTracking lib p ty cfg x0 track).queries e ∧
          (solveWithTracking lib p ty cfg x0 track).result.map (·.1) = e.told := by
  simp only [solve_argmin lib p hc]
  cases hs : setup lib ty x0 cfg with
  | error e => exact Or.inl ⟨e, setup_refusal hs, fun track => ⟨rfl, rfl⟩⟩
  | ok s =>
    have hm : s.maxIter = iterationLimit cfg ∧ BeginsAt x0 s.calls s.param := by
      cases ty <;> cases cfg <;> first | exact absurd rfl hc | (cases hs; done) | skip
      case lbfgs.lbfgs =>
        obtain ⟨lo, hi, r, _, rfl⟩ := setupLbfgs_ok hs
        exact ⟨rfl, Or.inl rfl⟩
      case nelderMead.nelderMead =>
        rw [setupNelderMead_ok hs]
        exact ⟨rfl, Or.inr ⟨rfl, _, List.mem_cons_self⟩⟩
      case steepestDescent.steepestDescent =>
        obtain ⟨lo, hi, r, _, rfl⟩ := setupSteepest_ok hs
        exact ⟨rfl, Or.inl rfl⟩
      case trustRegion.trustRegion =>
        rw [setupTrust_ok hs]
        exact ⟨rfl, Or.inl rfl⟩
      case newtonCG.newtonCG m cu tl ls =>
        cases ls with
        | moreThuente =>
          obtain ⟨lo, hi, r, _, rfl⟩ := setupNewtonMT_ok hs
          exact ⟨rfl, Or.inl rfl⟩
        | hagerZhang =>
          obtain ⟨lo, hi, r, _, rfl⟩ := setupNewtonHZ_ok (cu := cu) (tl := tl) hs
          exact ⟨rfl, Or.inl rfl⟩
    obtain ⟨e, h1, h2⟩ := exec_talk p (lib.run s.calls s.param s.maxIter) (counter false)
    refine Or.inr ⟨s.calls, s.param, e, hm.2, fun track => ?_⟩
    obtain ⟨e', h1', h2'⟩ := exec_talk p (lib.run s.calls s.param s.maxIter) (counter track)
    obtain ⟨hq, he⟩ := talk_unique h1 h1'
    subst he
    rw [← hm.1]
    refine ⟨h1', ?_⟩
    unfold execute
    dsimp only
    rw [h2']
    cases e.told <;> rfl

/-- A search that has a conversation, and one that is refused. -/
example : (solveWithTracking idleLib headProb .steepestDescent
      (.steepestDescent 5 (.moreThuente F64.one F64.one F64.one [F64.zero, F64.one])) [F64.two] true).queries =
        [.cost [F64.two]] ∧
    (solveWithTracking strictLib headProb .steepestDescent
      (.steepestDescent 5 (.moreThuente F64.one F64.one F64.one [F64.zero, F64.one])) [F64.two] true).result =
        .error .invalidSteepestDescent := ⟨rfl, rfl⟩

/-- C80: a COBYLA search either is refused before any evaluation, or is one conversation of COBYLA, started at the
given point with the configured limit, with the user's problem; the caller is told exactly how it ended. -/
theorem C80_cobyla (lib : Lib) (p : Prob) (cfg : SolverConfig) (x0 : Vec)
    (hlib : ∀ args, InRange p.constraints.length (lib.minimize args p.constraints.length)) :
    (∃ e, Refusal e ∧ ∀ track, (solveWithTracking lib p .cobyla cfg x0 track).result = .error e ∧
        (solveWithTracking lib p .cobyla cfg x0 track).queries = []) ∨
      ∃ (args : Cobyla) (e : Ending), args.x0 = x0 ∧ args.maxEval = iterationLimit cfg ∧
        (∀ track, CTalk p (lib.minimize args p.constraints.length)
            (solveWithTracking lib p .cobyla cfg x0 track).queries e ∧
          (solveWithTracking lib p .cobyla cfg x0 track).result.map (·.1) = e.told) := by
  cases hs : setupCobyla p x0 cfg with
  | error e =>
    have he : e = .invalidCOBYLA ∨ e = .panicked := by
      unfold setupCobyla at hs
      split at hs
      · split at hs
        · cases hs; exact Or.inl rfl
        · rcases bind_error hs with hs | ⟨_, _, hs⟩
          · exact Or.inr (rowBounds_error hs)
          · cases hs
      · cases hs; exact Or.inl rfl
    have hr : Refusal e := by
      rcases he with rfl | rfl <;> exact ⟨by decide, by decide⟩
    refine Or.inl ⟨e, hr, fun track => ?_⟩
    unfold solveWithTracking solveCobyla
    dsimp only
    rw [hs]
    exact ⟨rfl, rfl⟩
  | ok s =>
    have hm : s.x0 = x0 ∧ s.maxEval = iterationLimit cfg := by
      unfold setupCobyla at hs
      split at hs
      · split at hs
        · cases hs
        · obtain ⟨bs, _, hs⟩ := bind_ok hs
          cases hs
          exact ⟨rfl, rfl⟩
      · cases hs
    have key : ∀ track, ∃ e, CTalk p (lib.minimize s p.constraints.length)
        (solveWithTracking lib p .cobyla cfg x0 track).queries e ∧
        (solveWithTracking lib p .cobyla cfg x0 track).result.map (·.1) = e.told := by
      intro track
      obtain ⟨e, h1, h2⟩ := cexec_talk p (lib.minimize s p.constraints.length) (counter track) (hlib s)
      refine ⟨e, ?_⟩
      unfold solveWithTracking solveCobyla
      dsimp only
      rw [hs]
      dsimp only
      refine ⟨h1, ?_⟩
      rw [h2]
      cases e.told <;> rfl
    obtain ⟨e, h1, h2⟩ := key false
    refine Or.inr ⟨s, e, hm.1, hm.2, fun track => ?_⟩
    obtain ⟨t1, t2, _⟩ := C63_tracking_neutral lib p .cobyla cfg x0
    cases track with
    | false => exact ⟨h1, h2⟩
    | true => rw [t1, t2]; exact ⟨h1, h2⟩

example : (∀ args, InRange headProb.constraints.length (idleLib.minimize args headProb.constraints.length)) ∧
    (solveWithTracking idleLib headProb .cobyla (.cobyla 5 F64.one F64.one F64.one F64.one []) [F64.two]
      false).queries = [.cost [F64.two]] :=
  ⟨fun _ => .cost _ _ fun _ => .done _ _, rfl⟩

/-- C80: a reported solution is the solver's final answer, after a conversation in which no evaluation failed;
`NoSolution` means that the solver had no best point. -/
theorem C80_reported (lib : Lib) (p : Prob) (ty : SolverType) (cfg : SolverConfig) (x0 : Vec) (track : Bool)
    (hc : ty ≠ .cobyla) :
    (∀ x c k, (solveWithTracking lib p ty cfg x0 track).result = .ok ((x, c), k) →
      ∃ calls start, BeginsAt x0 calls start ∧
        Talk p (lib.run calls start (iterationLimit cfg)) (solveWithTracking lib p ty cfg x0 track).queries
          (.answer x c)) ∧
    ((solveWithTracking lib p ty cfg x0 track).result = .error .noSolution →
      ∃ calls start, BeginsAt x0 calls start ∧
        Talk p (lib.run calls start (iterationLimit cfg)) (solveWithTracking lib p ty cfg x0 track).queries
          .nothing) := by
  rcases C80_argmin lib p ty cfg x0 hc with ⟨e, hr, he⟩ | ⟨calls, start, e, hb, h⟩
  · refine ⟨fun x c k h => ?_, fun h => ?_⟩
    · rw [(he track).1] at h; cases h
    · rw [(he track).1] at h
      cases h
      exact absurd rfl hr.1
  · obtain ⟨h1, h2⟩ := h track
    refine ⟨fun x c k h => ⟨calls, start, hb, ?_⟩, fun h => ⟨calls, start, hb, ?_⟩⟩
    · rw [h] at h2
      cases e <;> cases h2
      exact h1
    · rw [h] at h2
      cases e <;> cases h2
      exact h1

end GS.Props
