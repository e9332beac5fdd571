/- C114: what the messages of errors tell. -/
import Verif.Lemmas.Messages
import Verif.Props.Outcome
import Verif.Props.Construct
import Verif.Props.Resume
import Verif.Props.Diversify

namespace GS

/-- Errors that are values of `OQNLPError`: everything but a panic. -/
def Err.Value : Err → Prop
  | .panic => False
  | .localSolver e => e ≠ .panicked
  | .scatterNew e => e ≠ .panic
  | .scatterRun e => e ≠ .panic
  | _ => True

/-- The error with all NaN taken as one. -/
def FilterError.blur : FilterError → FilterError
  | .negativeDistanceFactor v => .negativeDistanceFactor v.blur

/-- The error with all NaN taken as one. -/
def ScatterErr.blur : ScatterErr → ScatterErr
  | .invalidBounds d l u => .invalidBounds d l.blur u.blur
  | e => e

/-- The error with all NaN taken as one. -/
def Err.blur : Err → Err
  | .scatterNew e => .scatterNew e.blur
  | .scatterRun e => .scatterRun e.blur
  | .distanceFilter e => .distanceFilter e.blur
  | .invalidThresholdFactor t => .invalidThresholdFactor t.blur
  | e => e

theorem FilterError.text_inj {w : Words} (hw : w.Readable) {a b : FilterError} (h : a.text w = b.text w) : a.blur = b.blur := by
  cases a with
  | negativeDistanceFactor x =>
    cases b with
    | negativeDistanceFactor y => exact congrArg FilterError.negativeDistanceFactor (hw.float x y (List.append_cancel_left h))

theorem ScatterErr.text_inj {w : Words} (hw : w.Readable) {a b : ScatterErr} (ha : a ≠ .panic) (hb : b ≠ .panic)
    (h : a.text w = b.text w) : a.blur = b.blur := by
  have hk := apart_of_prefix ScatterErr.tags_apart (ScatterErr.tag_text w a ha) (h ▸ ScatterErr.tag_text w b hb)
  cases a with
  | panic => exact absurd rfl ha
  | noCandidates =>
    cases b <;> first
      | rfl
      | (simp [ScatterErr.kind] at hk)
  | evaluation x =>
    cases b <;> simp [ScatterErr.kind] at hk
    unfold ScatterErr.text at h
    rw [hw.eval _ _ (List.append_cancel_left h)]
  | noFeasibleCandidates x y =>
    cases b <;> simp [ScatterErr.kind] at hk
    rename_i x' y'
    unfold ScatterErr.text at h
    have hs : " attempts (problem dimension: ".toList = ' ' :: "attempts (problem dimension: ".toList := by
      decide +kernel
    simp only [List.append_assoc] at h
    have h := List.append_cancel_left h
    rw [hs, List.cons_append, List.cons_append] at h
    obtain ⟨h1, h2⟩ := read_nat hw (by unfold Name.IsDigit; decide) (by unfold Name.IsDigit; decide) h
    have h3 := List.append_cancel_left (List.cons.inj h2).2
    have h4 := List.append_cancel_right h3
    rw [hw.nat, hw.nat] at h4
    rw [h1, decimal_inj h4]
  | invalidBounds d l u =>
    cases b <;> simp [ScatterErr.kind] at hk
    rename_i d' l' u'
    unfold ScatterErr.text at h
    have hs : ": lower=".toList = ':' :: " lower=".toList := by decide +kernel
    have hs' : ", upper=".toList = ',' :: " upper=".toList := by decide +kernel
    simp only [List.append_assoc] at h
    have h := List.append_cancel_left h
    rw [hs, hs', List.cons_append, List.cons_append] at h
    obtain ⟨h1, h2⟩ := read_nat hw (by unfold Name.IsDigit; decide) (by unfold Name.IsDigit; decide) h
    have h3 := List.append_cancel_left (List.cons.inj h2).2
    obtain ⟨h4, h5⟩ := cut (p := fun c => c ≠ ',') (fun a ha e => hw.comma l (e ▸ ha))
      (fun a ha e => hw.comma l' (e ▸ ha)) (by simp) (by simp) h3
    have h6 := List.append_cancel_right (List.append_cancel_left (List.cons.inj h5).2)
    show ScatterErr.invalidBounds d l.blur u.blur = .invalidBounds d' l'.blur u'.blur
    rw [h1, hw.float _ _ h4, hw.float _ _ h6]

end GS

namespace GS.Props
open GS F64 Witness

/-- C114, proved part: the message tells everything the error holds. Two errors with the same message are of the same
kind, with the same numbers (any NaN for any other) and the same cause. -/
theorem C114_text_partial {w : Words} (hw : w.Readable) {a b : Err} (ha : a.Value) (hb : b.Value)
    (h : a.text w = b.text w) : a.blur = b.blur := by
  have ha' : a ≠ .panic := fun e => by subst e; exact ha
  have hb' : b ≠ .panic := fun e => by subst e; exact hb
  have hk := apart_of_prefix Err.tags_apart (Err.tag_text w a ha') (h ▸ Err.tag_text w b hb')
  cases a with
  | panic => exact ha.elim
  | objectiveFailed =>
    cases b <;> first
      | rfl
      | (simp [Err.kind] at hk)
  | localSolver x =>
    cases b <;> simp [Err.kind] at hk
    unfold Err.text at h
    rw [LErr.text_inj ha hb (List.append_cancel_left h)]
  | scatterNew x =>
    cases b <;> simp [Err.kind] at hk
    unfold Err.text at h
    exact congrArg Err.scatterNew (ScatterErr.text_inj hw ha hb (List.append_cancel_left h))
  | scatterRun x =>
    cases b <;> simp [Err.kind] at hk
    unfold Err.text at h
    exact congrArg Err.scatterRun (ScatterErr.text_inj hw ha hb (List.append_cancel_left h))
  | distanceFilter x =>
    cases b <;> simp [Err.kind] at hk
    unfold Err.text at h
    exact congrArg Err.distanceFilter (FilterError.text_inj hw (List.append_cancel_left h))
  | checkpoint x =>
    cases b <;> simp [Err.kind] at hk
    unfold Err.text at h
    rw [CkErr.text_inj (List.append_cancel_left h)]
  | noFeasibleSolution x =>
    cases b <;> simp [Err.kind] at hk
    unfold Err.text at h
    have h := List.append_cancel_left (List.append_cancel_right h)
    rw [hw.nat, hw.nat] at h
    rw [decimal_inj h]
  | invalidPopulationSize x =>
    cases b <;> simp [Err.kind] at hk
    unfold Err.text at h
    have h := List.append_cancel_left (List.append_cancel_right h)
    rw [hw.nat, hw.nat] at h
    rw [decimal_inj h]
  | invalidThresholdFactor x =>
    cases b <;> simp [Err.kind] at hk
    unfold Err.text at h
    exact congrArg Err.invalidThresholdFactor (hw.float _ _ (List.append_cancel_left (List.append_cancel_right h)))
  | invalidIterations x y =>
    cases b <;> simp [Err.kind] at hk
    unfold Err.text at h
    have hs : ", `population size`: ".toList = ',' :: " `population size`: ".toList := by decide +kernel
    simp only [List.append_assoc] at h
    have h := List.append_cancel_left h
    rw [hs, List.cons_append, List.cons_append] at h
    obtain ⟨h1, h2⟩ := read_nat hw (by unfold Name.IsDigit; decide) (by unfold Name.IsDigit; decide) h
    have h3 := List.append_cancel_right (List.append_cancel_left (List.cons.inj h2).2)
    rw [hw.nat, hw.nat] at h3
    rw [h1, decimal_inj h3]
  | customDimension i e g =>
    have hs : " has invalid dimension. Expected ".toList = ' ' :: "has invalid dimension. Expected ".toList := by
      decide +kernel
    have hs2 : " dimensions, got ".toList = ' ' :: "dimensions, got ".toList := by decide +kernel
    cases b <;> simp [Err.kind] at hk
    · unfold Err.text at h
      simp only [List.append_assoc] at h
      have h := List.append_cancel_left h
      rw [hs, hs2, List.cons_append, List.cons_append] at h
      obtain ⟨h1, h2⟩ := read_nat hw (by unfold Name.IsDigit; decide) (by unfold Name.IsDigit; decide) h
      have h3 := List.append_cancel_left (List.cons.inj h2).2
      obtain ⟨h4, h5⟩ := read_nat hw (by unfold Name.IsDigit; decide) (by unfold Name.IsDigit; decide) h3
      have h6 := List.append_cancel_right (List.append_cancel_left (List.cons.inj h5).2)
      rw [hw.nat, hw.nat] at h6
      rw [h1, h4, decimal_inj h6]
    · exfalso
      unfold Err.text at h
      simp only [List.append_assoc] at h
      have h := List.append_cancel_left h
      have ht : " is outside variable bounds.".toList = ' ' :: 'i' :: "s outside variable bounds.".toList := by
        decide +kernel
      have hs' : " has invalid dimension. Expected ".toList = ' ' :: 'h' :: "as invalid dimension. Expected ".toList := by
        decide +kernel
      rw [hs', ht, List.cons_append] at h
      obtain ⟨_, h2⟩ := read_nat hw (by unfold Name.IsDigit; decide) (by unfold Name.IsDigit; decide) h
      rw [List.cons_append] at h2
      exact absurd (List.cons.inj (List.cons.inj h2).2).1 (by decide)
  | customOutOfBounds i =>
    have ht : " is outside variable bounds.".toList = ' ' :: 'i' :: "s outside variable bounds.".toList := by
      decide +kernel
    cases b <;> simp [Err.kind] at hk
    · exfalso
      unfold Err.text at h
      simp only [List.append_assoc] at h
      have h := List.append_cancel_left h
      have hs' : " has invalid dimension. Expected ".toList = ' ' :: 'h' :: "as invalid dimension. Expected ".toList := by
        decide +kernel
      rw [hs', ht, List.cons_append] at h
      obtain ⟨_, h2⟩ := read_nat hw (by unfold Name.IsDigit; decide) (by unfold Name.IsDigit; decide) h
      rw [List.cons_append] at h2
      exact absurd (List.cons.inj (List.cons.inj h2).2).1 (by decide)
    · unfold Err.text at h
      have h := List.append_cancel_left (List.append_cancel_right h)
      rw [hw.nat, hw.nat] at h
      rw [decimal_inj h]

/-- C114, proved part: the numbers in the messages of `OQNLP::new` are those of the parameters. -/
theorem C114_new (w : Words) (p : Problem n) (q : Params) {e : Err} (h : Opt.new p q = .error e) :
    (q.populationSize ≤ 3 ∧ e.text w = "OQNLP Error: Population size should be at least 3, got ".toList ++
      w.nat q.populationSize ++
      ". Reference Set size should be at least 3, since it pushes the bounds and the midpoint.".toList) ∨
    (q.populationSize < q.iterations ∧ e.text w =
      "OQNLP Error: Iterations should be less than or equal to population size. OQNLP received `iterations`: ".toList ++
      w.nat q.iterations ++ ", `population size`: ".toList ++ w.nat q.populationSize ++ ".".toList) ∨
    (F64.le q.thresholdFactor F64.zero = true ∧ e.text w =
      "OQNLP Error: Threshold factor must be positive, got ".toList ++ w.float q.thresholdFactor ++ ".".toList) ∨
    (F64.lt q.distanceFactor F64.zero = true ∧ e.text w = "OQNLP Error: Failed to create distance filter: ".toList ++
      ("Distance factor must be positive or equal to zero, got ".toList ++ w.float q.distanceFactor)) := by
  rcases C11_first_error p q e h with ⟨h1, rfl⟩ | ⟨_, h1, rfl⟩ | ⟨_, _, h1, rfl⟩ | ⟨_, _, _, h1, rfl⟩
  · exact .inl ⟨h1, rfl⟩
  · exact .inr (.inl ⟨h1, rfl⟩)
  · exact .inr (.inr (.inl ⟨h1, rfl⟩))
  · exact .inr (.inr (.inr ⟨h1, rfl⟩))

/-- C114, proved part: the message of `with_points` names the first point that is not accepted and what is wrong with
it. -/
theorem C114_points (w : Words) (o : Opt n) (rows : List (List F64)) {e : Err} (h : o.withPoints rows = .error e) :
    ∃ (i : Nat) (row : List F64), rows[i]? = some row ∧
      (∀ (j : Nat) r, j < i → rows[j]? = some r → rowOk o.problem r) ∧
      ((row.length ≠ n ∧ e.text w = "OQNLP Error: Custom point at index ".toList ++ w.nat i ++
          " has invalid dimension. Expected ".toList ++ w.nat n ++ " dimensions, got ".toList ++ w.nat row.length ++
          ".".toList) ∨
        (row.length = n ∧ ¬ rowInside o.problem row ∧ e.text w = "OQNLP Error: Custom point at index ".toList ++
          w.nat i ++ " is outside variable bounds.".toList)) := by
  obtain ⟨i, row, h1, h2, h3⟩ := C12_first_error o rows e h
  refine ⟨i, row, h1, h2, ?_⟩
  rcases h3 with ⟨h3, rfl⟩ | ⟨h3, h4, rfl⟩
  · exact .inl ⟨h3, rfl⟩
  · exact .inr ⟨h3, h4, rfl⟩

/-- The result of a run as text. -/
def message (w : Words) (r : RunResult n) : Option (List Char) := match r.result with
  | .ok _ => none
  | .error e => some (e.text w)

/-- C114, proved part: the message of a run with a variable whose lower bound is not below the upper one names the
first such variable and its bounds. -/
theorem C114_bounds (w : Words) (env : Env n) (o : Opt n) (i : Fin n)
    (hi : F64.le (o.problem.upper i) (o.problem.lower i) = true) :
    ∃ j : Fin n, j ≤ i ∧ F64.le (o.problem.upper j) (o.problem.lower j) = true ∧
      message w (run env o none) = some ("OQNLP Error: Failed to create a new ScatterSearch instance: ".toList ++
        ("Scatter Search Error: Invalid bounds for variable ".toList ++ w.nat j ++ ": lower=".toList ++
          w.float (o.problem.lower j) ++ ", upper=".toList ++ w.float (o.problem.upper j) ++
          ". Lower bound must be < upper bound.".toList)) := by
  obtain ⟨_, j, h1, h2, h3⟩ := C13_run_rejects env o i hi
  refine ⟨j, h1, h2, ?_⟩
  unfold message
  rw [h3]
  rfl

/-- C114, proved part: the message about missing feasible candidates contains the number of additional batches that were
drawn and the dimension of the problem. -/
theorem C114_sampling (w : Words) (rt : Rt n) (sched : Sched) (s : Scatter n)
    (ht : ∀ seed, (Scatter.sample rt s.problem seed).isSome = true) {a d : Nat}
    (h : s.run rt sched = .error (.noFeasibleCandidates a d)) :
    ∃ j ≤ 10, (∀ i < j, feasibleAmong rt s (s.params.populationSize + i * (2 * s.params.populationSize)) <
        s.params.populationSize) ∧
      (j < 10 → s.params.populationSize ≤
        feasibleAmong rt s (s.params.populationSize + j * (2 * s.params.populationSize))) ∧
      (ScatterErr.noFeasibleCandidates a d).text w =
        "Scatter Search Error: No feasible candidates found after ".toList ++ w.nat j ++
        " attempts (problem dimension: ".toList ++ w.nat n ++ ")".toList := by
  have h1 := C22_run_error rt sched s a d h
  have hc : s.problem.constraints ≠ [] := by
    intro hc
    unfold Scatter.candidates at h1
    rw [hc] at h1
    split at h1
    · cases h1
    · cases h1
  obtain ⟨j, hj, N, hN, _, h2, h3, h4, h5⟩ := C22_sampling rt s (starters s).length ht hc
  refine ⟨j, hj, h2, hN ▸ h3, ?_⟩
  by_cases hx : feasibleAmong rt s N = 0 ∨ (starters s).length + feasibleAmong rt s N < s.params.populationSize
  · have := (h4 hx).symm.trans h1
    injection this with this
    rw [← this]
    rfl
  · obtain ⟨c, hc, _⟩ := h5 hx
    rw [hc] at h1
    cases h1

/-- Sample 5 is 2, all others are 1. -/
def rare : Rt 1 := rtWith (fun seed _ => if seed = 5 then num 2 else num 1) (fun _ _ => num 0)

/-- At least 3/2. -/
def above : Problem 1 := { lin with constraints := [fun p => (p 0).sub (F64.lit 3 2)] }

theorem above_ok : (Opt.new above (params 4 8 0)).toOption.isSome = true := by decide +kernel

theorem ten_attempts : "OQNLP Error: Failed to run the ScatterSearch instance: ".toList ++
    ("Scatter Search Error: No feasible candidates found after ".toList ++ Name.decimal 10 ++
      " attempts (problem dimension: ".toList ++ Name.decimal 1 ++ ")".toList) =
    ("OQNLP Error: Failed to run the ScatterSearch instance: Scatter Search Error: " ++
      "No feasible candidates found after 10 attempts (problem dimension: 1)").toList := by decide +kernel

/-- Violation: the candidates that were found. The run fails with "No feasible candidates found" although one of the
samples is feasible. -/
theorem C114_feasible_violated (w : Words) (hw : w.Readable) :
    Built (mk above (params 4 8 0) above_ok) ∧
    message w (run { env stay with rt := rare } (mk above (params 4 8 0) above_ok) none) =
      some ("OQNLP Error: Failed to run the ScatterSearch instance: Scatter Search Error: " ++
        "No feasible candidates found after 10 attempts (problem dimension: 1)").toList ∧
    feasibleAmong rare (configured (mk above (params 4 8 0) above_ok)) 8 = 1 := by
  have h : (run { env stay with rt := rare } (mk above (params 4 8 0) above_ok) none).result =
      .error (.scatterRun (.noFeasibleCandidates 10 1)) := resultErr_iff (by decide +kernel)
  have h1 : feasibleAmong rare (configured (mk above (params 4 8 0) above_ok)) 8 = 1 := by
    clear h hw
    clear w
    decide +kernel
  refine ⟨mk_built above_ok, ?_, h1⟩
  unfold message
  rw [h]
  show some ("OQNLP Error: Failed to run the ScatterSearch instance: ".toList ++
    ("Scatter Search Error: No feasible candidates found after ".toList ++ w.nat 10 ++
      " attempts (problem dimension: ".toList ++ w.nat 1 ++ ")".toList)) = _
  rw [hw.nat, hw.nat, ten_attempts]

/-- `C114_sampling` is not vacuous. -/
example : (∀ seed, (Scatter.sample rare above seed).isSome = true) ∧
    (match (configured (mk above (params 4 8 0) above_ok)).run rare (env stay).sched with
      | .error (.noFeasibleCandidates 10 1) => true
      | _ => false) = true :=
  ⟨fun seed => sample_total (rtWith_valid _ _) (p := above) (by
    constructor <;> intro i <;> (have hi : i = 0 := Subsingleton.elim _ _) <;> subst hi <;>
      decide +kernel) seed, by decide +kernel⟩

/-- Is it an error? -/
def rejected (r : Except Err α) : Option Err := match r with
  | .error e => some e
  | .ok _ => none

theorem rejected_iff {r : Except Err α} {e : Err} (h : rejected r = some e) : r = .error e := by
  unfold rejected at h
  split at h
  · cases h; rfl
  · cases h

/-- `C114_new` and `C114_points` are not vacuous. -/
example : Opt.new lin (params 3 3 0) = .error (.invalidPopulationSize 3) ∧
    Opt.new lin (params 5 4 0) = .error (.invalidIterations 5 4) ∧
    demo.withPoints [[num 2], [num 2, num 2]] = .error (.customDimension 1 1 2) ∧
    demo.withPoints [[num 2], [num 9]] = .error (.customOutOfBounds 1) :=
  ⟨rejected_iff (by decide +kernel), rejected_iff (by decide +kernel), rejected_iff (by decide +kernel),
    rejected_iff (by decide +kernel)⟩

/-- `C114_bounds` is not vacuous. -/
example : F64.le (({ demo with problem := { lin with upper := lin.lower } } : Opt 1).problem.upper 0)
    (({ demo with problem := { lin with upper := lin.lower } } : Opt 1).problem.lower 0) = true := by decide +kernel

theorem zero_candidates : "OQNLP Error: No feasible solution found after evaluating ".toList ++ Name.decimal 0 ++
    " candidates.".toList = "OQNLP Error: No feasible solution found after evaluating 0 candidates.".toList := by
  decide +kernel

theorem got_three : "OQNLP Error: Population size should be at least 3, got ".toList ++ Name.decimal 3 ++
    ". Reference Set size should be at least 3, since it pushes the bounds and the midpoint.".toList =
    ("OQNLP Error: Population size should be at least 3, got 3. " ++
      "Reference Set size should be at least 3, since it pushes the bounds and the midpoint.").toList := by
  decide +kernel

theorem unknown_solver : "Local Solver Error: ".toList ++ "unknown".toList ++ " found no solution after ".toList =
    "Local Solver Error: unknown found no solution after ".toList := by
  decide +kernel

/-- Violation: the number of candidates. `NoFeasibleSolution` says that 0 candidates were evaluated whatever the run
did; here local searches were run and found solutions. -/
theorem C114_candidates_violated (w : Words) (hw : w.Readable) :
    message w (run (env leave) (demo.setExclude true) none) =
      some "OQNLP Error: No feasible solution found after evaluating 0 candidates.".toList ∧
    1 ≤ (foundSols (run (env leave) (demo.setExclude true) none).final.trace).length := by
  have h : (run (env leave) (demo.setExclude true) none).result = .error (.noFeasibleSolution 0) :=
    resultErr_iff (by decide +kernel)
  have h1 : 1 ≤ (foundSols (run (env leave) (demo.setExclude true) none).final.trace).length := by
    clear h hw
    clear w
    decide +kernel
  refine ⟨?_, h1⟩
  unfold message
  rw [h]
  show some ("OQNLP Error: No feasible solution found after evaluating ".toList ++ w.nat 0 ++
    " candidates.".toList) = _
  rw [hw.nat, zero_candidates]

/-- Violation: the bound named in the message. A population of 3 is rejected with a message that asks for at least 3. -/
theorem C114_population_violated (w : Words) (hw : w.Readable) (p : Problem n) (q : Params) (h : q.populationSize = 3) :
    ∃ e, Opt.new p q = .error e ∧ e.text w = ("OQNLP Error: Population size should be at least 3, got 3. " ++
      "Reference Set size should be at least 3, since it pushes the bounds and the midpoint.").toList := by
  refine ⟨_, C11_three_rejected p q h, ?_⟩
  show "OQNLP Error: Population size should be at least 3, got ".toList ++ w.nat 3 ++
    ". Reference Set size should be at least 3, since it pushes the bounds and the midpoint.".toList = _
  rw [hw.nat, got_three]

/-- The demonstration with another solver. -/
def anySolver (ty : SolverType) : Opt 1 := { demo with lsType := ty }

/-- Violation: the solver. Whichever solver fails, the message calls it "unknown". -/
theorem C114_solver_violated (w : Words) (ty : SolverType) :
    message w (run (env failing) (anySolver ty) none) =
      some ("OQNLP Error: Local solver failed: ".toList ++
        ("Local Solver Error: unknown found no solution after ".toList ++ w.nat 0 ++ " iterations".toList)) := by
  have h : (run (env failing) (anySolver ty) none).result = .error (.localSolver .noSolution) :=
    resultErr_iff (by cases ty <;> decide +kernel)
  unfold message
  rw [h]
  show some (Err.text w (.localSolver .noSolution)) = _
  unfold Err.text LErr.text
  rw [unknown_solver]

/-- The objective always fails. -/
def broken (code : Nat) : Problem 1 := { lin with objective := fun _ => .error ⟨code⟩ }

/-- An optimizer for it, resuming from a checkpoint. -/
def brokenOpt (code : Nat) : Opt 1 := { resuming with problem := broken code }

theorem broken_fails : resultErr (run (env stay) (brokenOpt 7) (some (.ok sixPoints))) = some .objectiveFailed ∧
    resultErr (run (env stay) (brokenOpt 8) (some (.ok sixPoints))) = some .objectiveFailed := by decide +kernel

theorem unknown_stage : "OQNLP Error: Objective function evaluation failed during ".toList ++ "unknown".toList ++
    ".".toList = "OQNLP Error: Objective function evaluation failed during unknown.".toList := by decide +kernel

/-- Violation: the stage and the cause. A failed evaluation in stage 2 is reported as one during "unknown", without the
error of the objective: two causes, one message. -/
theorem C114_stage_violated (w : Words) : ∀ code ∈ [7, 8],
    message w (run (env stay) (brokenOpt code) (some (.ok sixPoints))) =
      some "OQNLP Error: Objective function evaluation failed during unknown.".toList := by
  have h : ∀ r : RunResult 1, resultErr r = some .objectiveFailed →
      message w r = some "OQNLP Error: Objective function evaluation failed during unknown.".toList := by
    intro r hr
    unfold message
    rw [resultErr_iff hr]
    exact congrArg some unknown_stage
  intro code hc
  rcases List.mem_cons.1 hc with rfl | hc
  · exact h _ broken_fails.1
  · rw [List.mem_singleton.1 hc]
    exact h _ broken_fails.2

/-- A way of writing numbers that can be read. -/
def plain : Words where
  nat := Name.decimal
  float x := if x.isNaN then "NaN".toList else (if x.neg then ['-'] else []) ++ Name.decimal x.mag
  eval e := Name.decimal e.code
  reason _ := []
  detail _ := []

theorem plain_chars {x : F64} (h : x.isNaN = false) : ∀ c ∈ plain.float x, c = '-' ∨ Name.IsDigit c := by
  intro c hc
  have hc : c ∈ (if x.neg then ['-'] else []) ++ Name.decimal x.mag := by
    have : plain.float x = (if x.neg then ['-'] else []) ++ Name.decimal x.mag := by
      show (if x.isNaN = true then _ else _) = _
      rw [h]; rfl
    rwa [this] at hc
  rcases List.mem_append.1 hc with hc | hc
  · left
    split at hc
    · exact List.mem_singleton.1 hc
    · cases hc
  · exact .inr (decimal_digits _ c hc)

/-- `C114_text_partial` is not vacuous: there are readable ways of writing. -/
theorem plain_readable : plain.Readable where
  nat _ := rfl
  float x y h := by
    have hN : ∀ z : F64, z.isNaN = true → plain.float z = ['N', 'a', 'N'] := fun z hz => by
      show (if z.isNaN = true then _ else _) = _
      rw [hz, if_pos rfl]; decide +kernel
    have hM : ¬ ('N' = '-' ∨ Name.IsDigit 'N') := by unfold Name.IsDigit; decide
    have hm : ¬ Name.IsDigit '-' := by unfold Name.IsDigit; decide
    have hd : ∀ z : F64, z.isNaN = false → plain.float z = (if z.neg then ['-'] else []) ++ Name.decimal z.mag :=
      fun z hz => by
        show (if z.isNaN = true then _ else _) = _
        rw [hz]; rfl
    unfold F64.blur
    cases hx : x.isNaN <;> cases hy : y.isNaN
    · rw [hd x hx, hd y hy] at h
      obtain ⟨xn, xm, _⟩ := x
      obtain ⟨yn, ym, _⟩ := y
      have hne : ∀ a b : Nat, '-' :: Name.decimal a ≠ Name.decimal b := fun a b e =>
        hm (decimal_digits b '-' (e ▸ List.mem_cons_self))
      have : xn = yn ∧ xm = ym := by
        cases xn <;> cases yn
        · exact ⟨rfl, decimal_inj h⟩
        · exact absurd h.symm (hne _ _)
        · exact absurd h (hne _ _)
        · exact ⟨rfl, decimal_inj (List.cons.inj h).2⟩
      obtain ⟨rfl, rfl⟩ := this
      rfl
    · exact absurd (plain_chars hx 'N' (by rw [h, hN y hy]; simp)) hM
    · exact absurd (plain_chars hy 'N' (by rw [← h, hN x hx]; simp)) hM
    · rfl
  comma x hx := by
    cases h : x.isNaN
    · rcases plain_chars h ',' hx with h | h
      · exact absurd h (by decide)
      · exact absurd h (by unfold Name.IsDigit; decide)
    · have : plain.float x = ['N', 'a', 'N'] := by
        show (if x.isNaN = true then _ else _) = _
        rw [h, if_pos rfl]; decide +kernel
      rw [this] at hx
      exact absurd hx (by decide)
  eval x y h := by
    cases x; cases y
    exact congrArg EvalErr.mk (decimal_inj h)

/-- Example: a message as it is written. -/
example : (Err.customDimension 2 3 10).Value ∧ (Err.customDimension 2 3 10).text plain =
    "OQNLP Error: Custom point at index 2 has invalid dimension. Expected 3 dimensions, got 10.".toList := by
  have h : "OQNLP Error: Custom point at index ".toList ++ Name.decimal 2 ++
      " has invalid dimension. Expected ".toList ++ Name.decimal 3 ++ " dimensions, got ".toList ++ Name.decimal 10 ++
      ".".toList =
      "OQNLP Error: Custom point at index 2 has invalid dimension. Expected 3 dimensions, got 10.".toList := by
    decide +kernel
  exact ⟨trivial, h⟩

end GS.Props
