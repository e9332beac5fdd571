/- C126: the attributes of observers and their states in Python programs. -/
import Verif.Model.PyAttr
import Verif.Props.PyChain
import Verif.Props.PyObserver

namespace GS.Props
open GS GS.Py
variable {n : Nat}

/-- What the attributes of a state of stage 1 are documented to be. -/
def stage1Table (s : Stage1 n) (now : Nat) : List (String × AttrVal) :=
  [("reference_set_size", .int s.refSetSize), ("best_objective", .float s.bestObjective),
    ("current_substage", .str s.substage.name), ("total_time", .time (s.totalTime now)),
    ("function_evaluations", .int s.functionEvaluations), ("trial_points_generated", .int s.trialPoints),
    ("best_point", .point (s.bestPoint.map fun p => List.ofFn p))]

/-- What the attributes of a state of stage 2 are documented to be. -/
def stage2Table (s : Stage2 n) (now : Nat) : List (String × AttrVal) :=
  [("best_objective", .float s.bestObjective), ("solution_set_size", .int s.solutionSetSize),
    ("current_iteration", .int s.iteration), ("threshold_value", .float s.threshold),
    ("local_solver_calls", .int s.localCalls), ("improved_local_calls", .int s.improvedCalls),
    ("function_evaluations", .int s.functionEvaluations), ("unchanged_cycles", .int s.unchangedCycles),
    ("total_time", .time (s.totalTime now)), ("best_point", .point (s.bestPoint.map fun p => List.ofFn p)),
    ("last_added_point", .point (s.lastAdded.map fun p => List.ofFn p))]

/-- C126: a state has exactly the documented attributes, each with the value it is named after. -/
theorem C126_attributes (s : Stage1 n) (t : Stage2 n) (now : Nat) (name : String) (v : AttrVal) :
    (s.attr now name = some v ↔ (name, v) ∈ stage1Table s now) ∧
    (t.attr now name = some v ↔ (name, v) ∈ stage2Table t now) := by
  constructor
  · unfold Stage1.attr stage1Table
    repeat' split
    all_goals simp_all [eq_comm]
  · unfold Stage2.attr stage2Table
    repeat' split
    all_goals simp_all [eq_comm]

theorem statements_inner (l : List PyObsOp) : (PyObs.new.statements l : PyObs n × _).1.inner.stage2Started = false ∧
    (PyObs.new.statements l : PyObs n × _).1.inner.startTime = none := by
  rw [statements_foldl]
  constructor
  · refine untouched (fun o => o.inner.stage2Started) (fun op _ o => ?_) _
    cases op <;> first | rfl | (simp only [PyObs.apply, Obs.withFrequency]; split <;> rfl)
  · refine untouched (fun o => o.inner.startTime) (fun op _ o => ?_) _
    cases op <;> first | rfl | (simp only [PyObs.apply, Obs.withFrequency]; split <;> rfl)

theorem statements_mode (l : List PyObsOp) (h : ∀ m, .mode m ∈ l → m ≠ .stage1Only) :
    (PyObs.new.statements l : PyObs n × _).1.inner.mode ≠ .stage1Only := by
  rw [statements_foldl]
  suffices ∀ o : PyObs n, o.inner.mode ≠ .stage1Only → (l.foldl PyObs.apply o).inner.mode ≠ .stage1Only from
    this _ (fun h => by cases h)
  induction l with
  | nil => exact fun _ ho => ho
  | cons op l ih =>
    intro o ho
    refine ih (fun m hm => h m (List.mem_cons_of_mem _ hm)) _ ?_
    cases op with
    | mode m => exact h m List.mem_cons_self
    | frequency f => rw [(frequency_apply o f).2.2.2.2.1]; exact ho
    | _ => exact ho

/-- C126: a program that makes a new observer, turns on stage 2 among any other calls, none of which restricts it to
stage 1, and passes it to `optimize`, reads from `observer.stage2()` the number of solutions returned and, in sequential
mode or if the target was not reached, the numbers of local searches and evaluations of stage 2. -/
theorem C126_program (lower : Char → List Char) (env : Env n) (a : Args n) (l : List PyObsOp) (b : PyObs n)
    (sols : List PySol) (now : Nat) (ht : Tame env) (hb : PyObs.new.statements l = (b, .ok ()))
    (h2 : .stage2Tracking ∈ l) (hm : ∀ m, .mode m ∈ l → m ≠ .stage1Only) (ha : a.observer = some b)
    (h : (optimize lower env a).value = .ok sols) :
    ∃ o b', setup lower a = .ok o ∧ (optimize lower env a).observer = some b' ∧
      ∀ s, b'.inner.getStage2 = some s →
        s.attr now "solution_set_size" = some (.int sols.length) ∧
        (a.parallel.getD false = false ∨ ¬ TargetMet o (run env o none).final.trace →
          s.attr now "local_solver_calls" = some (.int (nSearch (run env o none).final.trace)) ∧
          s.attr now "function_evaluations" =
            some (.int (evalsOf env o.params.solverType o.params.solverConfig (run env o none).final.trace))) := by
  obtain ⟨b0, hb0, -, -, hs2, -⟩ := C124_statements_partial (n := n) l
  have he : b0 = b := congrArg Prod.fst (hb0.symm.trans hb)
  subst he
  have hi := statements_inner (n := n) l
  have hmode := statements_mode (n := n) l hm
  rw [hb] at hi hmode
  obtain ⟨o, b', s, ho, hb', -, hs, -, -, hx, hz⟩ :=
    C79_fresh_partial lower env a b0 sols ht ha hmode (hs2 h2) hi.1 h
  refine ⟨o, b', ho, hb', fun s' hg => ?_⟩
  have he : s' = s := by
    unfold Obs.getStage2 at hg
    split at hg
    · rw [hs] at hg; exact (Option.some.inj hg).symm
    · cases hg
  subst he
  refine ⟨?_, fun hc => ⟨?_, ?_⟩⟩
  · rw [← hz hg]; rfl
  · rw [← (hx hc).1]; rfl
  · rw [← (hx hc).2]; rfl

/-- C126: before `optimize` a new observer says that a stage is observed iff it is tracked and the mode does not exclude it
(C124 says when), that timing is enabled iff it was turned on, and no elapsed time. -/
theorem C126_properties (l : List PyObsOp) (b : PyObs n) (now : Nat) (hb : PyObs.new.statements l = (b, .ok ())) :
    b.attr now "should_observe_stage1" =
      some (.bool (decide (b.inner.mode ≠ .stage2Only) && b.inner.stage1.isSome)) ∧
    b.attr now "should_observe_stage2" =
      some (.bool (decide (b.inner.mode ≠ .stage1Only) && b.inner.stage2.isSome)) ∧
    (b.attr now "is_timing_enabled" = some (.bool true) ↔ .timing ∈ l) ∧
    b.attr now "elapsed_time" = some (.time none) := by
  obtain ⟨b0, hb0, -, -, -, -, ht, -⟩ := C124_statements_partial (n := n) l
  have he : b0 = b := congrArg Prod.fst (hb0.symm.trans hb)
  subst he
  have hi := statements_inner (n := n) l
  rw [hb] at hi
  refine ⟨?_, ?_, ?_, ?_⟩
  · show some (AttrVal.bool b0.inner.should1) = _
    unfold Obs.should1
    cases b0.inner.mode <;> rfl
  · show some (AttrVal.bool b0.inner.should2) = _
    unfold Obs.should2
    cases b0.inner.mode <;> rfl
  · rw [← ht]
    show some (AttrVal.bool b0.inner.trackTiming) = some (.bool true) ↔ _
    simp
  · show some (AttrVal.time (b0.inner.elapsedTime now)) = _
    unfold Obs.elapsedTime
    rw [hi.2]
    rfl

/-- C123 is violated: the stub file declares a method the class does not have (python/pyglobalsearch.pyi 1538). -/
theorem C123_method_violated : "flush_messages" ∉ observerMethods := by decide +kernel

example : (Stage2.new : Stage2 n).attr 3 "local_solver_calls" = some (.int 0) ∧
    (Stage2.new : Stage2 n).attr 3 "local_calls" = none := ⟨rfl, rfl⟩

/-- The observer of the example of C79 is one made by statements. -/
example : ∃ b : PyObs 1, PyObs.new.statements [.timing, .stage2Tracking, .frequency 5] = (b, .ok ()) ∧
    b.attr 9 "should_observe_stage2" = some (.bool true) ∧ b.attr 9 "should_observe_stage1" = some (.bool false) :=
  ⟨_, rfl, rfl, rfl⟩

end GS.Props
