/- C121: the texts of the observer states of the Python module. -/
import Verif.Model.StateText
import Verif.Props.PyObserver
import Verif.Props.Messages

namespace GS.Props
open GS GS.Witness Py

/-- Numbers are written as Rust writes them: `usize` in decimal, and `{:.6}` of an `f64` without comma. A hypothesis of
theorems. -/
structure StateLegible (w : StateWords) : Prop where
  nat : ∀ k, w.nat k = Name.decimal k
  fix6 : ∀ x, ∀ c ∈ w.fix6 x, c ≠ ','

theorem Substage.name_inj {s t : Substage} (h : s.name = t.name) : s = t := by
  revert h; cases s <;> cases t <;> decide +kernel

theorem Substage.name_chars (s : Substage) : ∀ c ∈ s.name, c ≠ '\'' := by
  cases s <;> decide +kernel

theorem StateLegible.inj {w : StateWords} (hw : StateLegible w) {a b : Nat} (h : w.nat a = w.nat b) : a = b := by
  rw [hw.nat, hw.nat] at h
  exact decimal_inj h

/-- Reading a number followed by something that is not a digit. -/
theorem StateLegible.read {w : StateWords} (hw : StateLegible w) {a b : Nat} {c d : Char} {r s : List Char}
    (hc : ¬ Name.IsDigit c) (hd : ¬ Name.IsDigit d) (h : w.nat a ++ c :: r = w.nat b ++ d :: s) :
    a = b ∧ c :: r = d :: s := by
  rw [hw.nat, hw.nat] at h
  obtain ⟨h1, h2⟩ := cut (decimal_digits a) (decimal_digits b) hc hd h
  exact ⟨decimal_inj h1, h2⟩

theorem StateLegible.field {w : StateWords} (hw : StateLegible w) {a b : Nat} {p r s : List Char}
    (h : w.nat a ++ ((',' :: p) ++ r) = w.nat b ++ ((',' :: p) ++ s)) : a = b ∧ r = s := by
  have hc : ¬ Name.IsDigit ',' := by unfold Name.IsDigit; decide
  obtain ⟨h1, h2⟩ := hw.read hc hc h
  exact ⟨h1, List.append_cancel_left (List.cons.inj h2).2⟩

theorem StateLegible.float {w : StateWords} (hw : StateLegible w) {x y : F64} {p r s : List Char}
    (h : w.fix6 x ++ ((',' :: p) ++ r) = w.fix6 y ++ ((',' :: p) ++ s)) : w.fix6 x = w.fix6 y ∧ r = s := by
  obtain ⟨h1, h2⟩ := cut (p := fun c => c ≠ ',') (hw.fix6 x) (hw.fix6 y) (by simp) (by simp) h
  exact ⟨h1, List.append_cancel_left (List.cons.inj h2).2⟩

theorem Substage.field {s t : Substage} {p q r : List Char}
    (h : s.name ++ (('\'' :: p) ++ q) = t.name ++ (('\'' :: p) ++ r)) : s = t ∧ q = r := by
  obtain ⟨h1, h2⟩ := cut (p := fun c => c ≠ '\'') (Substage.name_chars s) (Substage.name_chars t) (by simp) (by simp) h
  exact ⟨Substage.name_inj h1, List.append_cancel_left (List.cons.inj h2).2⟩

variable {n : Nat}

/-- `repr` and `str` of a state of stage 1 tell its sizes and counters and the substage; the best objective and the time
as far as the digits go. -/
theorem C121_stage1 {w : StateWords} (hw : StateLegible w) (s t : Stage1 n) :
    (s.repr w = t.repr w → s.refSetSize = t.refSetSize ∧ s.substage = t.substage ∧
      s.functionEvaluations = t.functionEvaluations ∧ s.trialPoints = t.trialPoints ∧
      w.fix6 s.bestObjective = w.fix6 t.bestObjective) ∧
    ∀ now later, s.str w now = t.str w later → s.refSetSize = t.refSetSize ∧ s.substage = t.substage ∧
      s.functionEvaluations = t.functionEvaluations ∧ s.trialPoints = t.trialPoints ∧
      w.sci6 s.bestObjective = w.sci6 t.bestObjective ∧
      w.secs ((s.totalTime now).getD 0) = w.secs ((t.totalTime later).getD 0) := by
  constructor
  · intro h
    have h := List.append_cancel_left h
    obtain ⟨h1, h⟩ := hw.field h
    obtain ⟨h2, h⟩ := hw.float h
    obtain ⟨h3, h⟩ := Substage.field h
    obtain ⟨h4, h⟩ := hw.field h
    exact ⟨h1, h3, h4, hw.inj (List.append_cancel_right h), h2⟩
  · intro now later h
    unfold Stage1.str at h
    simp only [List.cons.injEq, true_and, and_true] at h
    obtain ⟨h1, h2, h3, h4, h5, h6⟩ := h
    exact ⟨hw.inj (List.append_cancel_left h1), Substage.name_inj (List.append_cancel_left h3),
      hw.inj (List.append_cancel_left h4), hw.inj (List.append_cancel_left h5), List.append_cancel_left h2,
      List.append_cancel_right (List.append_cancel_left h6)⟩

/-- `repr` and `str` of a state of stage 2 tell its sizes and counters; the objectives and the time as far as the digits
go. -/
theorem C121_stage2 {w : StateWords} (hw : StateLegible w) (s t : Stage2 n) :
    (s.repr w = t.repr w → s.solutionSetSize = t.solutionSetSize ∧ s.iteration = t.iteration ∧
      s.localCalls = t.localCalls ∧ s.improvedCalls = t.improvedCalls ∧
      s.functionEvaluations = t.functionEvaluations ∧ s.unchangedCycles = t.unchangedCycles ∧
      w.fix6 s.bestObjective = w.fix6 t.bestObjective ∧ w.fix6 s.threshold = w.fix6 t.threshold) ∧
    ∀ now later, s.str w now = t.str w later → s.solutionSetSize = t.solutionSetSize ∧ s.iteration = t.iteration ∧
      s.localCalls = t.localCalls ∧ s.improvedCalls = t.improvedCalls ∧
      s.functionEvaluations = t.functionEvaluations ∧ s.unchangedCycles = t.unchangedCycles ∧
      w.sci6 s.bestObjective = w.sci6 t.bestObjective ∧ w.sci6 s.threshold = w.sci6 t.threshold ∧
      w.secs ((s.totalTime now).getD 0) = w.secs ((t.totalTime later).getD 0) := by
  constructor
  · intro h
    have h := List.append_cancel_left h
    obtain ⟨h1, h⟩ := hw.float h
    obtain ⟨h2, h⟩ := hw.field h
    obtain ⟨h3, h⟩ := hw.field h
    obtain ⟨h4, h⟩ := hw.float h
    obtain ⟨h5, h⟩ := hw.field h
    obtain ⟨h6, h⟩ := hw.field h
    obtain ⟨h7, h⟩ := hw.field h
    exact ⟨h2, h3, h5, h6, h7, hw.inj (List.append_cancel_right h), h1, h4⟩
  · intro now later h
    unfold Stage2.str at h
    simp only [List.cons.injEq, true_and, and_true] at h
    obtain ⟨h1, h2, h3, h4, h5, h6, h7, h8, h9⟩ := h
    have e := fun {p : List Char} {a b : Nat} (h : p ++ w.nat a = p ++ w.nat b) => hw.inj (List.append_cancel_left h)
    exact ⟨e h2, e h3, e h5, e h6, e h7, e h8, List.append_cancel_left h1, List.append_cancel_left h4,
      List.append_cancel_right (List.append_cancel_left h9)⟩

/-- The named numbers are the ones of the state: each line of `str` is the label with the field of that name, so two
states are not only told apart but described. -/
theorem C121_labels (w : StateWords) (s : Stage1 n) (t : Stage2 n) (now : Nat) :
    ("Reference Set Size: ".toList ++ w.nat s.refSetSize ∈ s.str w now ∧
      "Best Objective: ".toList ++ w.sci6 s.bestObjective ∈ s.str w now ∧
      "Current Substage: ".toList ++ s.substage.name ∈ s.str w now ∧
      "Function Evaluations: ".toList ++ w.nat s.functionEvaluations ∈ s.str w now ∧
      "Trial Points Generated: ".toList ++ w.nat s.trialPoints ∈ s.str w now ∧ (s.str w now).length = 8) ∧
    ("Best Objective: ".toList ++ w.sci6 t.bestObjective ∈ t.str w now ∧
      "Solution Set Size: ".toList ++ w.nat t.solutionSetSize ∈ t.str w now ∧
      "Current Iteration: ".toList ++ w.nat t.iteration ∈ t.str w now ∧
      "Threshold Value: ".toList ++ w.sci6 t.threshold ∈ t.str w now ∧
      "Local Solver Calls: ".toList ++ w.nat t.localCalls ∈ t.str w now ∧
      "Improved Calls: ".toList ++ w.nat t.improvedCalls ∈ t.str w now ∧
      "Function Evaluations: ".toList ++ w.nat t.functionEvaluations ∈ t.str w now ∧
      "Unchanged Cycles: ".toList ++ w.nat t.unchangedCycles ∈ t.str w now ∧ (t.str w now).length = 11) := by
  have m : ∀ {l : List (List Char)} (i : Nat) {x : List Char}, l[i]? = some x → x ∈ l :=
    fun _ _ h => List.mem_of_getElem? h
  exact ⟨⟨m 2 rfl, m 3 rfl, m 4 rfl, m 5 rfl, m 6 rfl, rfl⟩,
    ⟨m 2 rfl, m 3 rfl, m 4 rfl, m 5 rfl, m 6 rfl, m 7 rfl, m 8 rfl, m 9 rfl, rfl⟩⟩

/-- The same for `repr`: each number stands between its name and the next comma or the closing parenthesis. -/
theorem C121_names (w : StateWords) (s : Stage1 n) (t : Stage2 n) :
    ("(reference_set_size=".toList ++ w.nat s.refSetSize ++ [','] <:+: s.repr w ∧
      " best_objective=".toList ++ w.fix6 s.bestObjective ++ [','] <:+: s.repr w ∧
      " current_substage='".toList ++ s.substage.name ++ ['\'', ','] <:+: s.repr w ∧
      " function_evaluations=".toList ++ w.nat s.functionEvaluations ++ [','] <:+: s.repr w ∧
      " trial_points_generated=".toList ++ w.nat s.trialPoints ++ [')'] <:+: s.repr w) ∧
    ("(best_objective=".toList ++ w.fix6 t.bestObjective ++ [','] <:+: t.repr w ∧
      " solution_set_size=".toList ++ w.nat t.solutionSetSize ++ [','] <:+: t.repr w ∧
      " current_iteration=".toList ++ w.nat t.iteration ++ [','] <:+: t.repr w ∧
      " threshold_value=".toList ++ w.fix6 t.threshold ++ [','] <:+: t.repr w ∧
      " local_solver_calls=".toList ++ w.nat t.localCalls ++ [','] <:+: t.repr w ∧
      " improved_local_calls=".toList ++ w.nat t.improvedCalls ++ [','] <:+: t.repr w ∧
      " function_evaluations=".toList ++ w.nat t.functionEvaluations ++ [','] <:+: t.repr w ∧
      " unchanged_cycles=".toList ++ w.nat t.unchangedCycles ++ [')'] <:+: t.repr w) := by
  -- a piece at the front, after skipping a label with its number
  have front : ∀ (x p v e r : List Char), p ++ v ++ e <:+: x ++ p ++ (v ++ (e ++ r)) := fun x p v e r =>
    ⟨x, r, by simp only [List.append_assoc]⟩
  have skip : ∀ {a y : List Char} (p v : List Char), a <:+: y → a <:+: p ++ (v ++ y) := fun p v h =>
    h.trans ⟨p ++ v, [], by simp only [List.append_assoc, List.append_nil]⟩
  refine ⟨⟨?_, ?_, ?_, ?_, ?_⟩, ⟨?_, ?_, ?_, ?_, ?_, ?_, ?_, ?_⟩⟩
  · exact front "PyStage1State".toList _ _ _ _
  · exact skip _ _ (front [','] _ _ _ _)
  · exact skip _ _ (skip _ _ (front [','] _ _ _ _))
  · exact skip _ _ (skip _ _ (skip _ _ (front ['\'', ','] _ _ _ _)))
  · exact skip _ _ (skip _ _ (skip _ _ (skip _ _ (front [','] _ _ _ []))))
  · exact front "PyStage2State".toList _ _ _ _
  · exact skip _ _ (front [','] _ _ _ _)
  · exact skip _ _ (skip _ _ (front [','] _ _ _ _))
  · exact skip _ _ (skip _ _ (skip _ _ (front [','] _ _ _ _)))
  · exact skip _ _ (skip _ _ (skip _ _ (skip _ _ (front [','] _ _ _ _))))
  · exact skip _ _ (skip _ _ (skip _ _ (skip _ _ (skip _ _ (front [','] _ _ _ _)))))
  · exact skip _ _ (skip _ _ (skip _ _ (skip _ _ (skip _ _ (skip _ _ (front [','] _ _ _ _))))))
  · exact skip _ _ (skip _ _ (skip _ _ (skip _ _ (skip _ _ (skip _ _ (skip _ _ (front [','] _ _ _ [])))))))

/-- After a successful `optimize` with an observer for stage 2 that was not used before, `str` of the state of stage 2
names the number of solutions returned and, in sequential mode or if the target was not reached, the number of local
searches run. -/
theorem C121_final (w : StateWords) (lower : Char → List Char) (env : Env n) (a : Args n) (b : PyObs n)
    (l : List PySol) (ht : Tame env) (hb : a.observer = some b) (hm : b.inner.mode ≠ .stage1Only)
    (h2 : b.inner.stage2 = some Stage2.new) (hn : b.inner.stage2Started = false)
    (h : (optimize lower env a).value = .ok l) :
    ∃ o b', setup lower a = .ok o ∧ (optimize lower env a).observer = some b' ∧
      ∀ s now, b'.inner.getStage2 = some s →
        "Solution Set Size: ".toList ++ w.nat l.length ∈ s.str w now ∧
        (a.parallel.getD false = false ∨ ¬ TargetMet o (run env o none).final.trace →
          "Local Solver Calls: ".toList ++ w.nat (nSearch (run env o none).final.trace) ∈ s.str w now) := by
  obtain ⟨o, b', s, ho, hb', -, hs, -, -, hx, hz⟩ := C79_fresh_partial lower env a b l ht hb hm h2 hn h
  refine ⟨o, b', ho, hb', fun s' now hg => ?_⟩
  have he : s' = s := by
    unfold Obs.getStage2 at hg
    split at hg
    · rw [hs] at hg; exact (Option.some.inj hg).symm
    · cases hg
  subst he
  have hl := (C121_labels w (Stage1.new : Stage1 n) s' now).2
  refine ⟨?_, fun hc => ?_⟩
  · rw [← hz hg]; exact hl.2.1
  · rw [← (hx hc).1]; exact hl.2.2.2.2.1

/-! Non-vacuity. -/

/-- A way of writing numbers that can be read. -/
def plainState : StateWords := ⟨Name.decimal, fun x => Name.decimal x.mag, fun x => Name.decimal x.mag, Name.decimal⟩

theorem plainState_legible : StateLegible plainState where
  nat _ := rfl
  fix6 x c hc h := by
    have := decimal_digits x.mag c hc
    rw [h] at this
    revert this; unfold Name.IsDigit; decide

example : ((Stage1.new : Stage1 1).addTrialPoints 12).repr plainState ≠
    ((Stage1.new : Stage1 1).addTrialPoints 13).repr plainState := by decide +kernel

example : ((Stage1.new : Stage1 1).enterSubstage .localOptimization 3).str plainState 5 ≠
    ((Stage1.new : Stage1 1).enterSubstage .localOptimizationComplete 3).str plainState 5 := by decide +kernel

end GS.Props
