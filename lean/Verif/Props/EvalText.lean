/- C118: the message of a failed evaluation tells its cause. -/
import Verif.Model.EvalText
import Verif.Props.Messages
import Verif.Props.Outcome

namespace GS.Props
open GS GS.Witness

/-- What can be read from a cause: all but the kinds of NaN. -/
def blurCause : EvalCause → EvalCause
  | .negativeSqrt v => .negativeSqrt v.blur
  | c => c

/-- The kind of a cause. -/
def causeKind (c : EvalCause) : Nat := match c with
  | .invalidInput _ => 0
  | .divisionByZero => 1
  | .negativeSqrt _ => 2
  | .objectiveNotImplemented => 3
  | .gradientNotImplemented => 4
  | .hessianNotImplemented => 5
  | .objectiveFailed _ => 6
  | .gradientFailed _ => 7
  | .hessianFailed _ => 8
  | .constraintNotImplemented => 9
  | .invalidConstraintIndex _ _ => 10
  | .constraintFailed _ _ => 11

/-- Recognizes the kind of a message by single characters. -/
def causeOf (l : List Char) : Nat :=
  if l[0]? = some 'I' then (if l[8]? = some 'i' then 0 else 10)
  else if l[0]? = some 'D' then 1
  else if l[0]? = some 'N' then 2
  else if l[0]? = some 'O' then (if l[19]? = some 'n' then 3 else 6)
  else if l[0]? = some 'G' then (if l[9]? = some 'n' then 4 else 7)
  else if l[0]? = some 'H' then (if l[8]? = some 'n' then 5 else 8)
  else (if l[10]? = some 's' then 9 else 11)

theorem causeOf_text (nat : Nat → List Char) (float : F64 → List Char) (c : EvalCause) :
    causeOf (c.text nat float) = causeKind c := by
  cases c <;> unfold EvalCause.text causeOf causeKind <;> rfl

/-- The message of an evaluation error tells its kind, its reason and its numbers. -/
theorem C118_cause {w : Words} (hw : w.Readable) (c d : EvalCause)
    (h : c.text w.nat w.float = d.text w.nat w.float) : blurCause c = blurCause d := by
  have hk : causeKind c = causeKind d := by
    rw [← causeOf_text w.nat w.float, ← causeOf_text w.nat w.float, h]
  have hsp : ¬ Name.IsDigit ' ' := by unfold Name.IsDigit; decide
  have hco : ¬ Name.IsDigit ',' := by unfold Name.IsDigit; decide
  have e : ∀ {p x y : List Char}, p ++ x = p ++ y → x = y := fun h => List.append_cancel_left h
  cases c <;> cases d <;> first | (simp [causeKind] at hk; done) | rfl | skip
  · rw [e (p := "Invalid input: ".toList) h]
  · have h := List.append_cancel_right (e (p := "Negative square root: attempted sqrt(".toList) h)
    exact congrArg EvalCause.negativeSqrt (hw.float _ _ h)
  · rw [e (p := "Objective function evaluation failed: ".toList) h]
  · rw [e (p := "Gradient evaluation failed: ".toList) h]
  · rw [e (p := "Hessian evaluation failed: ".toList) h]
  · obtain ⟨h1, h2⟩ := read_nat hw hco hco (e (p := "Invalid constraint index ".toList) h)
    have h3 := e (p := ", valid range is 0..".toList) h2
    rw [hw.nat, hw.nat] at h3
    rw [h1, decimal_inj h3]
  · obtain ⟨h1, h2⟩ := read_nat hw hsp hsp (e (p := "Constraint ".toList) h)
    rw [h1, e (p := " evaluation failed: ".toList) h2]

variable {n : Nat}

/-- The message contains the numbers and the reason of the error as they are, each in its place: a reason ends it, the
number of a constraint stands after the word, the limit of a wrong index ends it. -/
theorem C118_contains (nat : Nat → List Char) (float : F64 → List Char) :
    (∀ r, r <:+ (EvalCause.invalidInput r).text nat float ∧ r <:+ (EvalCause.objectiveFailed r).text nat float ∧
      r <:+ (EvalCause.gradientFailed r).text nat float ∧ r <:+ (EvalCause.hessianFailed r).text nat float) ∧
    (∀ v, "sqrt(".toList ++ float v ++ [')'] <:+ (EvalCause.negativeSqrt v).text nat float) ∧
    (∀ i m, "Invalid constraint index ".toList ++ nat i ++ [','] <+:
        (EvalCause.invalidConstraintIndex i m).text nat float ∧
      "0..".toList ++ nat m <:+ (EvalCause.invalidConstraintIndex i m).text nat float) ∧
    ∀ i r, "Constraint ".toList ++ nat i ++ [' '] <+: (EvalCause.constraintFailed i r).text nat float ∧
      r <:+ (EvalCause.constraintFailed i r).text nat float := by
  have pre : ∀ (p x e r : List Char), p ++ x ++ e <+: p ++ (x ++ (e ++ r)) := fun p x e r =>
    ⟨r, by simp only [List.append_assoc]⟩
  have suf : ∀ (p x y r : List Char), r <:+ p ++ (x ++ (y ++ r)) := fun p x y r =>
    ⟨p ++ (x ++ y), by simp only [List.append_assoc]⟩
  refine ⟨fun r => ⟨⟨"Invalid input: ".toList, rfl⟩, ⟨"Objective function evaluation failed: ".toList, rfl⟩,
      ⟨"Gradient evaluation failed: ".toList, rfl⟩, ⟨"Hessian evaluation failed: ".toList, rfl⟩⟩,
    fun v => ⟨"Negative square root: attempted ".toList, ?_⟩, 
    fun i m => ⟨pre "Invalid constraint index ".toList (nat i) [','] (" valid range is 0..".toList ++ nat m), ?_⟩,
    fun i r => ⟨pre "Constraint ".toList (nat i) [' '] ("evaluation failed: ".toList ++ r),
      suf "Constraint ".toList (nat i) " evaluation failed: ".toList r⟩⟩
  · have h : "Negative square root: attempted sqrt(".toList =
        "Negative square root: attempted ".toList ++ "sqrt(".toList := by decide +kernel
    show _ = "Negative square root: attempted sqrt(".toList ++ (float v ++ ")".toList)
    rw [h, List.append_assoc, List.append_assoc]
    rfl
  · have h : ", valid range is 0..".toList = ", valid range is ".toList ++ "0..".toList := by decide +kernel
    refine ⟨"Invalid constraint index ".toList ++ (nat i ++ ", valid range is ".toList), ?_⟩
    show _ = "Invalid constraint index ".toList ++ (nat i ++ (", valid range is 0..".toList ++ nat m))
    rw [h, List.append_assoc, List.append_assoc, List.append_assoc]

/-- If the objective fails at a point of the initial reference set, the message of the run ends with the text of the error
that the objective returned there or at another point of this set. Missing: failures in stage 2, see
`C118_stage2_violated`. -/
theorem C118_stage1_partial (w : Words) (mean : EvalErr → EvalCause) {env : Env n} {o : Opt n}
    {loaded : Option (Except CkErr (Ckpt n))}
    (hf : Fresh o loaded) (hbd : ∀ i, F64.lt (o.problem.lower i) (o.problem.upper i) = true)
    {s1 : Scatter n} {ref : List (Pt n)}
    (hdiv : (configured o).diversify env.rt env.sched
      (Scatter.seedPoints o.problem ++ (configured o).customPoints) = .ok (s1, ref))
    {p : Pt n} (hp : p ∈ ref) {x : EvalErr} (hx : o.problem.objective p = .error x) :
    ∃ q ∈ ref, ∃ y, o.problem.objective q = .error y ∧
      message (w.withCauses mean) (run env o loaded) =
        some ("OQNLP Error: Failed to run the ScatterSearch instance: ".toList ++
          ("Scatter Search Error: Evaluation failed during evaluation: ".toList ++ (mean y).text w.nat w.float)) := by
  obtain ⟨q, hq, y, hy, hr⟩ := C31_stage1_failure hf hbd hdiv hp hx
  refine ⟨q, hq, y, hy, ?_⟩
  unfold message
  rw [hr]
  have : "Scatter Search Error: Evaluation failed during evaluation: ".toList =
      "Scatter Search Error: Evaluation failed during ".toList ++ "evaluation".toList ++ ": ".toList := by
    decide +kernel
  rw [this]
  rfl

/-- The same for a Python objective whose exceptions have the text `text`: the message of `optimize` ends with it. -/
theorem C118_python (w : Words) (text : List Char) {env : Env n} {o : Opt n}
    {loaded : Option (Except CkErr (Ckpt n))}
    (hf : Fresh o loaded) (hbd : ∀ i, F64.lt (o.problem.lower i) (o.problem.upper i) = true)
    {s1 : Scatter n} {ref : List (Pt n)}
    (hdiv : (configured o).diversify env.rt env.sched
      (Scatter.seedPoints o.problem ++ (configured o).customPoints) = .ok (s1, ref))
    {p : Pt n} (hp : p ∈ ref) {x : EvalErr} (hx : o.problem.objective p = .error x) :
    ∃ m, message (w.withCauses fun _ => .ofPython text) (run env o loaded) = some m ∧
      "Invalid input: ".toList ++ text <:+ m := by
  obtain ⟨q, -, y, -, hm⟩ := C118_stage1_partial w (fun _ => .ofPython text) hf hbd hdiv hp hx
  refine ⟨_, hm, ?_⟩
  rw [← List.append_assoc]
  exact List.suffix_append _ _

/-- Violation: the cause of a failure in stage 2 is not in the message, whatever it is. -/
theorem C118_stage2_violated (w : Words) (mean : EvalErr → EvalCause) : ∀ code ∈ [7, 8],
    (brokenOpt code).problem.objective (pt F64.zero) = .error ⟨code⟩ ∧
    message (w.withCauses mean) (run (env stay) (brokenOpt code) (some (.ok sixPoints))) =
      some "OQNLP Error: Objective function evaluation failed during unknown.".toList :=
  fun code hc => ⟨rfl, C114_stage_violated _ code hc⟩

theorem cliff_ok : (Opt.new cliff (params 4 6 0)).toOption.isSome = true := by decide +kernel

/-- A failure in the initial reference set. -/
example : ∃ o s1 ref, Opt.new cliff (params 4 6 0) = .ok o ∧ Fresh o none ∧
    (configured o).diversify (env stay).rt (env stay).sched
      (Scatter.seedPoints o.problem ++ (configured o).customPoints) = .ok (s1, ref) ∧ pt (num 4) ∈ ref ∧
    o.problem.objective (pt (num 4)) = .error ⟨7⟩ := by
  have key : ((configured (mk cliff (params 4 6 0) cliff_ok)).diversify (env stay).rt (env stay).sched
      (Scatter.seedPoints (mk cliff (params 4 6 0) cliff_ok).problem ++
        (configured (mk cliff (params 4 6 0) cliff_ok)).customPoints)).toOption.map
        (fun r => r.2.any fun p => p 0 == num 4) = some true := by decide +kernel
  have ho : Opt.new cliff (params 4 6 0) = .ok (mk cliff (params 4 6 0) cliff_ok) := okOf_eq _ _
  generalize mk cliff (params 4 6 0) cliff_ok = o at key ho
  cases hd : (configured o).diversify (env stay).rt (env stay).sched
      (Scatter.seedPoints o.problem ++ (configured o).customPoints) with
  | error e => rw [hd] at key; cases key
  | ok r =>
    rw [hd] at key
    obtain ⟨q, hq, hv⟩ := List.any_eq_true.1 (Option.some.inj key)
    have hq4 : q = pt (num 4) := funext fun i => by
      rw [show i = 0 from Subsingleton.elim _ _]; exact eq_of_beq hv
    refine ⟨o, r.1, r.2, ho, .inl rfl, hd, hq4 ▸ hq, ?_⟩
    rw [(new_fields ho).1]
    have hc : ∀ v, v = num 4 → cliff.objective (pt v) = .error ⟨7⟩ := fun v hv => if_pos hv
    exact hc _ rfl

example : EvalCause.text plain.nat plain.float (.invalidConstraintIndex 12 3) =
    "Invalid constraint index 12, valid range is 0..3".toList := by decide +kernel

example : EvalCause.text plain.nat plain.float (.constraintFailed 12 "bad".toList) =
    "Constraint 12 evaluation failed: bad".toList := by decide +kernel

end GS.Props
