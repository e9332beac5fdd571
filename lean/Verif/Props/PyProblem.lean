/- C128: the functions of a Python problem reach the solvers. -/
import Verif.Model.PyProblem
import Verif.Props.PyResult
import Verif.Props.Evaluations

namespace GS.Props
open GS GS.Py GS.Builders
open GS.Runner hiding setup
variable {n : Nat}

/-- The Python problem has a function for the question, and it returned something that can be converted. -/
def PyAnswered (p : PyProblem) : Query → Prop
  | .cost x => ∃ v, p.objective x = some v
  | .gradient x => ∃ g, p.gradient = some g ∧ ∃ v, g x = some v
  | .hessian x => ∃ h, p.hessian = some h ∧ ∃ rows, h x = some rows ∧
      rows.flatten.length = rows.length * rows.length
  | .constraint i _ => i < p.constraints.length

/-- C128 (partial): values, gradients, square Hessians, rectangular bounds and constraints reach the solvers unchanged;
an exception is reported as invalid input, a missing derivative as missing; bounds that cannot be read panic.
Missing: the dimensions of gradients, Hessians and bounds are not checked (`C128_shapes_violated`). -/
theorem C128_passed_partial (p : PyProblem) :
    (∀ q, p.toProb = .ok q →
      (∀ x v, q.objective x = .ok v ↔ p.objective x = some v) ∧
      (∀ x, p.objective x = none → q.objective x = .error invalidInput) ∧
      (p.gradient = none → q.gradient = defaultGradient) ∧
      (∀ g, p.gradient = some g → ∀ x, (∀ v, q.gradient x = .ok v ↔ g x = some v) ∧
        (g x = none → q.gradient x = .error invalidInput)) ∧
      (p.hessian = none → q.hessian = defaultHessian) ∧
      (∀ h, p.hessian = some h → ∀ x, (h x = none → q.hessian x = .error invalidInput) ∧
        ∀ rows, h x = some rows →
          ((∀ r ∈ rows, r.length = rows.length) → q.hessian x = .ok rows) ∧
          (rows.flatten.length ≠ rows.length * rows.length → q.hessian x = .error invalidInput)) ∧
      (∀ rows, p.bounds = some rows → Rectangular rows → q.bounds = rows) ∧
      q.constraints = p.constraints) ∧
    ((∃ q, p.toProb = .ok q) ↔ ∃ rows, p.bounds = some rows ∧
      rows.flatten.length = rows.length * firstLength rows) ∧
    ((¬ ∃ q, p.toProb = .ok q) → p.toProb = .error .panic) := by
  refine ⟨fun q hq => ?_, ?_, ?_⟩
  · unfold PyProblem.toProb at hq
    split at hq
    · cases hq
    rename_i b hb
    injection hq with hq
    subst hq
    dsimp only
    refine ⟨fun x v => ?_, fun x hx => ?_, fun h => ?_, fun g hg x => ⟨fun v => ?_, fun hx => ?_⟩, fun h => ?_,
      fun h hh x => ⟨fun hx => ?_, fun rows hr => ⟨fun hsq => ?_, fun hne => ?_⟩⟩, fun rows hr hrect => ?_, rfl⟩
    · unfold PyProblem.cost
      cases p.objective x <;> simp
    · unfold PyProblem.cost
      rw [hx]
    · funext x
      unfold PyProblem.slope defaultGradient
      rw [h]
    · unfold PyProblem.slope
      rw [hg]
      dsimp only
      cases g x <;> simp
    · unfold PyProblem.slope
      rw [hg]
      dsimp only
      rw [hx]
    · funext x
      unfold PyProblem.curvature defaultHessian
      rw [h]
    · unfold PyProblem.curvature
      rw [hh]
      dsimp only
      rw [hx]
    · unfold PyProblem.curvature
      rw [hh]
      dsimp only
      rw [hr]
      dsimp only
      have : hessianArray rows = some rows := by
        refine (C70_rectangular rows fun r hr r' hr' => by rw [hsq r hr, hsq r' hr']).2.2 ?_
        cases rows with
        | nil => rfl
        | cons r t => exact (hsq r (by simp)).symm
      rw [this]
    · unfold PyProblem.curvature
      rw [hh]
      dsimp only
      rw [hr]
      dsimp only
      rw [(C70_acceptance_partial rows).2.2.2 hne]
    · rw [hr, (C70_rectangular rows hrect).2.1] at hb
      injection hb with hb
      exact hb.symm
  · constructor
    · rintro ⟨q, hq⟩
      unfold PyProblem.toProb at hq
      split at hq
      · cases hq
      rename_i b hb
      cases hr : p.bounds with
      | none => rw [hr] at hb; cases hb
      | some rows =>
        refine ⟨rows, rfl, ?_⟩
        by_contra hne
        rw [hr, ((C70_acceptance_partial rows).2.1 hne).2] at hb
        cases hb
    · rintro ⟨rows, hr, hl⟩
      unfold PyProblem.toProb variableBounds fromShape
      rw [hr]
      dsimp only
      rw [if_pos hl]
      exact ⟨_, rfl⟩
  · intro h
    unfold PyProblem.toProb at *
    split
    · rename_i e he
      unfold variableBounds at he
      (repeat' split at he) <;> cases he <;> rfl
    · rename_i b hb
      rw [hb] at h
      exact absurd ⟨_, rfl⟩ h

theorem answered_py {p : PyProblem} {q : Prob} (hq : p.toProb = .ok q) (c : Query) (h : Answered q c) :
    PyAnswered p c := by
  obtain ⟨h1, _, h3, h4, h5, h6, _, h8⟩ := (C128_passed_partial p).1 q hq
  cases c with
  | cost x =>
    obtain ⟨v, hv⟩ := h
    exact ⟨v, (h1 x v).1 hv⟩
  | gradient x =>
    obtain ⟨v, hv⟩ := h
    cases hg : p.gradient with
    | none => rw [h3 hg] at hv; cases hv
    | some g => exact ⟨g, hg, v, ((h4 g hg x).1 v).1 hv⟩
  | hessian x =>
    obtain ⟨v, hv⟩ := h
    cases hh : p.hessian with
    | none => rw [h5 hh] at hv; cases hv
    | some f =>
      obtain ⟨k1, k2⟩ := h6 f hh x
      cases hr : f x with
      | none => rw [k1 hr] at hv; cases hv
      | some rows =>
        refine ⟨f, hh, rows, hr, ?_⟩
        by_contra hne
        rw [(k2 rows hr).2 hne] at hv
        cases hv
  | constraint i x =>
    obtain ⟨g, hg⟩ := h
    rw [h8] at hg
    exact (List.getElem?_eq_some_iff.1 hg).1

/-- C128: if `optimize` with an argmin solver returns, no function of the Python problem called in a local search was
missing or raised. -/
theorem C128_returned {lower : Char → List Char} {env : Env n} {a : Args n} {p : PyProblem} {q : Prob} {lib : Lib}
    (hq : p.toProb = .ok q) (hu : Uses env lib q) (hc : Completes env a.params.iterations) {l : List PySol}
    (h : (optimize lower env a).value = .ok l) :
    ∃ o, setup lower a = .ok o ∧ (o.params.solverType ≠ .cobyla →
      ∀ it x r, Event.search it x r ∈ (run env o none).final.trace →
        ∀ c ∈ (solveWithTracking lib q o.params.solverType o.params.solverConfig (vec x) true).queries,
          PyAnswered p c) := by
  obtain ⟨o, _, ho, _⟩ := C127_returned lower env a l h
  refine ⟨o, ho, fun hty it x r hm c hcq => answered_py hq c ?_⟩
  obtain ⟨_, hp, ep, _⟩ := C72_settings lower a o ho
  have hrun : ∃ set, (run env o none).result = .ok set := by
    cases hr : (run env o none).result with
    | ok set => exact ⟨set, rfl⟩
    | error e =>
      rw [(C127_outcome lower env a o ho).2 e hr] at h
      cases h
  obtain ⟨set, hset⟩ := hrun
  refine C106_run (setup_built lower a o ho) (Or.inl rfl) hu ?_ hty hset it x r hm c hcq
  rw [ep, (params_fields hp).1]
  exact hc

/-- C128: with a solver that asks for a derivative the Python problem does not have, `optimize` raises `ValueError`
and leaves the observer as it was. -/
theorem C128_missing {lower : Char → List Char} {env : Env n} {a : Args n} {p : PyProblem} {q : Prob} {lib : Lib}
    {o : Opt n} (hq : p.toProb = .ok q) (hu : Uses env lib q) (ho : setup lower a = .ok o)
    (hty : o.params.solverType ≠ .cobyla) {r : Scatter.Result n} (hr : Act.scatter env o = .ok r) {y : Vec}
    (hask : (p.gradient = none ∧ Query.gradient y ∈
        (solveWithTracking lib q o.params.solverType o.params.solverConfig (vec r.best) true).queries) ∨
      (p.hessian = none ∧ Query.hessian y ∈
        (solveWithTracking lib q o.params.solverType o.params.solverConfig (vec r.best) true).queries)) :
    optimize lower env a = ⟨.error .valueError, a.observer⟩ := by
  obtain ⟨_, _, h3, _, h5, _⟩ := (C128_passed_partial p).1 q hq
  have hrun := (C106_missing_derivative (setup_built lower a o ho) (loaded := none) (Or.inl rfl) hu hty hr
    (hask.imp (fun h => ⟨h3 h.1, h.2⟩) fun h => ⟨h5 h.1, h.2⟩)).1
  unfold optimize
  rw [ho]
  dsimp only
  rw [hrun]
  rfl

/-- C128 is violated: a gradient of the wrong length, a Hessian of the wrong size and bounds with a third column are
passed on as if they were right, for every problem. -/
theorem C128_shapes_violated (f : Vec → Option F64) (l u w g d : F64) :
    ∃ q, (PyProblem.mk f (some [[l, u, w], [l, u, w]]) (some fun _ => some [g]) (some fun _ => some [[d]])
        []).toProb = .ok q ∧
      q.bounds = [[l, u, w], [l, u, w]] ∧ ∀ x y, q.gradient [x, y] = .ok [g] ∧ q.hessian [x, y] = .ok [[d]] :=
  ⟨_, rfl, rfl, fun _ _ => ⟨rfl, rfl⟩⟩

/-! ### Examples -/

/-- The problem `lin` written in Python, without derivatives. -/
def pyLin : PyProblem where
  objective x := (linProb.objective x).toOption
  bounds := some linProb.bounds

/-- Its optimization with steepest descent. -/
def pyLinArgs : Args 1 where
  problem := Witness.lin
  params := ⟨4, 6, 2, F64.lit 1 5, F64.lit 3 4, F64.zero, F64.zero⟩
  localSolver := some "steepestdescent".toList

/-- The problem as the solvers see it. -/
def pyLinProb : Prob := match pyLin.toProb with
  | .ok q => q
  | .error _ => linProb

theorem pyLin_ok : pyLin.toProb = .ok pyLinProb := by
  obtain ⟨q, hq⟩ := (C128_passed_partial pyLin).2.1.2 ⟨linProb.bounds, rfl, by decide⟩
  unfold pyLinProb
  rw [hq]

/-- Steepest descent asks for the gradient that is missing: `ValueError`. -/
example : Uses (slopeEnv pyLinProb) slopeLib pyLinProb ∧ pyLin.gradient = none ∧
    (match setup demoLower pyLinArgs with
    | .ok o => decide (o.params.solverType ≠ .cobyla) && (match Act.scatter (slopeEnv pyLinProb) o with
      | .ok r => decide (Query.gradient (vec r.best) ∈ (solveWithTracking slopeLib pyLinProb o.params.solverType
          o.params.solverConfig (vec r.best) true).queries)
      | .error _ => false)
    | .error _ => false) = true := by
  refine ⟨rfl, rfl, by decide +kernel⟩

/-- With its gradient ... -/
def pyLinGrad : PyProblem := { pyLin with gradient := some fun x => (linProb.gradient x).toOption }

/-- ... as the solvers see it ... -/
def pyLinGradProb : Prob := match pyLinGrad.toProb with
  | .ok q => q
  | .error _ => linProb

/-- ... the optimization returns. -/
example : pyLinGrad.toProb = .ok pyLinGradProb ∧ Uses (slopeEnv pyLinGradProb) slopeLib pyLinGradProb ∧
    Completes (slopeEnv pyLinGradProb) pyLinArgs.params.iterations ∧
    (optimize demoLower (slopeEnv pyLinGradProb) pyLinArgs).value =
      .ok (returned (optimize demoLower (slopeEnv pyLinGradProb) pyLinArgs)) ∧
    (match setup demoLower pyLinArgs with
    | .ok o => decide (o.params.solverType ≠ .cobyla)
    | .error _ => false) = true := by
  refine ⟨?_, rfl, env_completes _ (by decide), returned_ok (by decide +kernel), by decide +kernel⟩
  obtain ⟨q, hq⟩ := (C128_passed_partial pyLinGrad).2.1.2 ⟨linProb.bounds, rfl, by decide⟩
  unfold pyLinGradProb
  rw [hq]

end GS.Props
