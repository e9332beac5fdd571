/- C53, C54, C58, C60: the observer as an object of its own. -/
import Mathlib.Data.List.Induction
import Verif.Lemmas.Witness
import Verif.Model.Observer

namespace GS.Props
open GS F64 GS.Witness
variable {n : Nat}

/-! ### C53 -/

/-- What can be done to an observer: the builder methods, what the library does during a run (any update
through `stage1_mut`/`stage2_mut`, the marks), and the built-in callbacks. -/
inductive ObsOp (n : Nat) where
  | withStage1
  | withStage2
  | withTiming
  | withMode (m : Mode)
  | withCallback (c : Nat)
  | withDefaultCallback
  | withStage1Callback
  | withStage2Callback
  | withFrequency (f : Nat)
  | uniqueUpdates
  | startTimer (now : Nat)
  | update1 (f : Stage1 n → Stage1 n)
  | update2 (f : Stage2 n → Stage2 n)
  | forced2 (f : Stage2 n → Stage2 n)
  | stage1Complete
  | stage2Started
  | defaultCallback
  | stage1Callback
  | stage2Callback

/-- Effect of an operation. -/
def ObsOp.apply (o : Obs n) : ObsOp n → Obs n
  | .withStage1 => o.withStage1
  | .withStage2 => o.withStage2
  | .withTiming => o.withTiming
  | .withMode m => o.withMode m
  | .withCallback c => o.withCallback c
  | .withDefaultCallback => o.withDefaultCallback
  | .withStage1Callback => o.withStage1Callback
  | .withStage2Callback => o.withStage2Callback
  | .withFrequency f => o.withFrequency f
  | .uniqueUpdates => o.uniqueUpdates
  | .startTimer now => o.startTimer now
  | .update1 f => o.upd1 f
  | .update2 f => o.upd2 f
  | .forced2 f => o.mod2 f
  | .stage1Complete => o.markStage1Complete
  | .stage2Started => o.markStage2Started
  | .defaultCallback => o.defaultCallback.1
  | .stage1Callback => o.stage1Callback.1
  | .stage2Callback => o.stage2Callback.1

/-- The operation enables stage-1 tracking, and so on. -/
def ObsOp.enables1 : ObsOp n → Bool
  | .withStage1 => true
  | _ => false
def ObsOp.enables2 : ObsOp n → Bool
  | .withStage2 => true
  | _ => false
def ObsOp.completes1 : ObsOp n → Bool
  | .stage1Complete => true
  | _ => false
def ObsOp.starts2 : ObsOp n → Bool
  | .stage2Started => true
  | _ => false

theorem upd1_flags (o : Obs n) (f : Stage1 n → Stage1 n) : (o.upd1 f).stage1.isSome = o.stage1.isSome ∧
    (o.upd1 f).stage2 = o.stage2 ∧ (o.upd1 f).stage1Completed = o.stage1Completed ∧
    (o.upd1 f).stage2Started = o.stage2Started := by
  unfold Obs.upd1 Obs.mod1
  split
  · exact ⟨by simp, rfl, rfl, rfl⟩
  · exact ⟨rfl, rfl, rfl, rfl⟩

theorem upd2_flags (o : Obs n) (f : Stage2 n → Stage2 n) : (o.upd2 f).stage2.isSome = o.stage2.isSome ∧
    (o.upd2 f).stage1 = o.stage1 ∧ (o.upd2 f).stage1Completed = o.stage1Completed ∧
    (o.upd2 f).stage2Started = o.stage2Started := by
  unfold Obs.upd2 Obs.mod2
  split
  · exact ⟨by simp, rfl, rfl, rfl⟩
  · exact ⟨rfl, rfl, rfl, rfl⟩

theorem default2_flags (o : Obs n) : ∃ p, o.defaultStage2.1 = { o with prev := p } := by
  unfold Obs.defaultStage2
  split
  · exact ⟨o.prev, rfl⟩
  · split
    · split
      · exact ⟨_, rfl⟩
      · exact ⟨o.prev, rfl⟩
    · exact ⟨o.prev, rfl⟩

/-- The default callback changes nothing but the remembered stage-2 numbers. -/
theorem default_flags (o : Obs n) : ∃ p, o.defaultCallback.1 = { o with prev := p } := by
  unfold Obs.defaultCallback
  split
  · split
    · exact ⟨o.prev, rfl⟩
    · exact default2_flags o
  · exact default2_flags o

theorem stage1Callback_id (o : Obs n) : o.stage1Callback.1 = o := by
  unfold Obs.stage1Callback
  split <;> rfl
theorem stage2Callback_id (o : Obs n) : o.stage2Callback.1 = o := by
  unfold Obs.stage2Callback
  split <;> rfl

theorem apply_flags (o : Obs n) (op : ObsOp n) :
    (op.apply o).stage1.isSome = (o.stage1.isSome || op.enables1) ∧
    (op.apply o).stage2.isSome = (o.stage2.isSome || op.enables2) ∧
    (op.apply o).stage1Completed = (o.stage1Completed || op.completes1) ∧
    (op.apply o).stage2Started = (o.stage2Started || op.starts2) := by
  cases op
  case update1 f =>
    obtain ⟨h1, h2, h3, h4⟩ := upd1_flags o f
    simp [ObsOp.apply, ObsOp.enables1, ObsOp.enables2, ObsOp.completes1, ObsOp.starts2, h1, h2, h3, h4]
  case update2 f =>
    obtain ⟨h1, h2, h3, h4⟩ := upd2_flags o f
    simp [ObsOp.apply, ObsOp.enables1, ObsOp.enables2, ObsOp.completes1, ObsOp.starts2, h1, h2, h3, h4]
  case startTimer t =>
    unfold ObsOp.apply Obs.startTimer
    dsimp only
    split <;> simp [ObsOp.enables1, ObsOp.enables2, ObsOp.completes1, ObsOp.starts2]
  case withFrequency f =>
    unfold ObsOp.apply Obs.withFrequency
    dsimp only
    split <;> simp [ObsOp.enables1, ObsOp.enables2, ObsOp.completes1, ObsOp.starts2,
      Obs.withDefaultCallback, Obs.withCallback]
  case defaultCallback =>
    obtain ⟨p, hp⟩ := default_flags o
    simp [ObsOp.apply, ObsOp.enables1, ObsOp.enables2, ObsOp.completes1, ObsOp.starts2, hp]
  case stage1Callback =>
    simp [ObsOp.apply, ObsOp.enables1, ObsOp.enables2, ObsOp.completes1, ObsOp.starts2,
      stage1Callback_id]
  case stage2Callback =>
    simp [ObsOp.apply, ObsOp.enables1, ObsOp.enables2, ObsOp.completes1, ObsOp.starts2,
      stage2Callback_id]
  all_goals
    simp [ObsOp.apply, ObsOp.enables1, ObsOp.enables2, ObsOp.completes1, ObsOp.starts2, Obs.withStage1,
      Obs.withStage2, Obs.withTiming, Obs.withMode, Obs.withCallback, Obs.withDefaultCallback,
      Obs.withStage1Callback, Obs.withStage2Callback, Obs.uniqueUpdates, Obs.mod2,
      Obs.markStage1Complete, Obs.markStage2Started]

theorem foldl_flags (o : Obs n) (ops : List (ObsOp n)) :
    (ops.foldl ObsOp.apply o).stage1.isSome = (o.stage1.isSome || ops.any ObsOp.enables1) ∧
    (ops.foldl ObsOp.apply o).stage2.isSome = (o.stage2.isSome || ops.any ObsOp.enables2) ∧
    (ops.foldl ObsOp.apply o).stage1Completed = (o.stage1Completed || ops.any ObsOp.completes1) ∧
    (ops.foldl ObsOp.apply o).stage2Started = (o.stage2Started || ops.any ObsOp.starts2) := by
  induction ops generalizing o with
  | nil => simp
  | cons op ops ih =>
    obtain ⟨h1, h2, h3, h4⟩ := ih (op.apply o)
    obtain ⟨g1, g2, g3, g4⟩ := apply_flags o op
    simp only [List.foldl_cons, List.any_cons, h1, h2, h3, h4, g1, g2, g3, g4, Bool.or_assoc, and_self]

/-- C53: after any sequence of operations on a new observer, `stage1()` is there exactly if stage-1
tracking was enabled and stage 1 has not completed, `stage1_final()` exactly if tracking was enabled, and
`stage2()` exactly if stage-2 tracking was enabled and stage 2 has started. -/
theorem C53_visible (ops : List (ObsOp n)) :
    ((ops.foldl ObsOp.apply Obs.new).getStage1.isSome = true ↔
      (∃ op ∈ ops, op.enables1 = true) ∧ ¬ ∃ op ∈ ops, op.completes1 = true) ∧
    ((ops.foldl ObsOp.apply Obs.new).getStage1Final.isSome = true ↔
      ∃ op ∈ ops, op.enables1 = true) ∧
    ((ops.foldl ObsOp.apply Obs.new).getStage2.isSome = true ↔
      (∃ op ∈ ops, op.enables2 = true) ∧ ∃ op ∈ ops, op.starts2 = true) := by
  obtain ⟨h1, h2, h3, h4⟩ := foldl_flags (Obs.new : Obs n) ops
  have e1 : (Obs.new : Obs n).stage1.isSome = false := rfl
  have e2 : (Obs.new : Obs n).stage2.isSome = false := rfl
  have e3 : (Obs.new : Obs n).stage1Completed = false := rfl
  have e4 : (Obs.new : Obs n).stage2Started = false := rfl
  rw [e1, Bool.false_or] at h1
  rw [e2, Bool.false_or] at h2
  rw [e3, Bool.false_or] at h3
  rw [e4, Bool.false_or] at h4
  refine ⟨?_, ?_, ?_⟩
  · unfold Obs.getStage1
    rw [h3]
    by_cases hc : ops.any ObsOp.completes1 = true
    · rw [if_pos hc]
      rw [List.any_eq_true] at hc
      constructor
      · intro h; cases h
      · rintro ⟨_, h⟩; exact absurd hc h
    · rw [if_neg hc, h1, List.any_eq_true]
      rw [List.any_eq_true] at hc
      exact ⟨fun h => ⟨h, hc⟩, fun h => h.1⟩
  · unfold Obs.getStage1Final
    rw [h1, List.any_eq_true]
  · unfold Obs.getStage2
    rw [h4]
    by_cases hc : ops.any ObsOp.starts2 = true
    · rw [if_pos hc, h2, List.any_eq_true]
      rw [List.any_eq_true] at hc
      exact ⟨fun h => ⟨h, hc⟩, fun h => h.1⟩
    · rw [if_neg hc]
      rw [List.any_eq_true] at hc
      constructor
      · intro h; cases h
      · rintro ⟨_, h⟩; exact absurd h hc

example : (([.withStage1, .withStage2, .stage2Started, .stage1Complete] : List (ObsOp 1)).foldl
    ObsOp.apply Obs.new).getStage1 = none := rfl

/-- The last of the settings that `f` finds in the operations. -/
def lastAsked {α β : Type} (f : α → Option β) (ops : List α) : Option β := (ops.filterMap f).getLast?

theorem lastAsked_snoc {α β : Type} (f : α → Option β) (ops : List α) (op : α) :
    lastAsked f (ops ++ [op]) = (f op).or (lastAsked f ops) := by
  unfold lastAsked
  rw [List.filterMap_append]
  cases h : f op with
  | none => simp [h]
  | some x => simp [h]

/-- The mode set by an operation, and so on. -/
def ObsOp.mode? : ObsOp n → Option Mode
  | .withMode m => some m
  | _ => none
def ObsOp.frequency? : ObsOp n → Option Nat
  | .withFrequency f => some f
  | _ => none
/-- The callback asked for by an operation. -/
def ObsOp.callback? : ObsOp n → Option Nat
  | .withCallback c => some c
  | .withDefaultCallback => some 0
  | .withStage1Callback => some 1
  | .withStage2Callback => some 2
  | _ => none
def ObsOp.timing : ObsOp n → Bool
  | .withTiming => true
  | _ => false
def ObsOp.unique : ObsOp n → Bool
  | .uniqueUpdates => true
  | _ => false

/-- C53: the settings of an observer are the last ones asked for, whatever else happened in between: mode (both
stages at first), frequency (1 at first), callback (none at first; setting a frequency without ever asking for a
callback asks for the default one), timing and unique updates. -/
theorem C53_settings (ops : List (ObsOp n)) :
    (ops.foldl ObsOp.apply Obs.new).mode = (lastAsked ObsOp.mode? ops).getD .both ∧
    (ops.foldl ObsOp.apply Obs.new).frequency = (lastAsked ObsOp.frequency? ops).getD 1 ∧
    (ops.foldl ObsOp.apply Obs.new).callback = (lastAsked ObsOp.callback? ops).or
      (if (lastAsked ObsOp.frequency? ops).isSome then some 0 else none) ∧
    (ops.foldl ObsOp.apply Obs.new).trackTiming = ops.any ObsOp.timing ∧
    (ops.foldl ObsOp.apply Obs.new).filterChanges = ops.any ObsOp.unique := by
  induction ops using List.reverseRecOn with
  | nil => exact ⟨rfl, rfl, rfl, rfl, rfl⟩
  | append_singleton ops op ih =>
    obtain ⟨h1, h2, h3, h4, h5⟩ := ih
    simp only [List.foldl_append, List.foldl_cons, List.foldl_nil, lastAsked_snoc, List.any_append, List.any_cons,
      List.any_nil, Bool.or_false]
    generalize ops.foldl ObsOp.apply Obs.new = o at *
    have hsame : ∀ o' : Obs n, o'.mode = o.mode → o'.frequency = o.frequency → o'.callback = o.callback →
        o'.trackTiming = o.trackTiming → o'.filterChanges = o.filterChanges → op.mode? = none →
        op.frequency? = none → op.callback? = none → op.timing = false → op.unique = false →
        o'.mode = (op.mode?.or (lastAsked ObsOp.mode? ops)).getD .both ∧
        o'.frequency = (op.frequency?.or (lastAsked ObsOp.frequency? ops)).getD 1 ∧
        o'.callback = (op.callback?.or (lastAsked ObsOp.callback? ops)).or
          (if (op.frequency?.or (lastAsked ObsOp.frequency? ops)).isSome then some 0 else none) ∧
        o'.trackTiming = (ops.any ObsOp.timing || op.timing) ∧
        o'.filterChanges = (ops.any ObsOp.unique || op.unique) := by
      intro o' a1 a2 a3 a4 a5 b1 b2 b3 b4 b5
      rw [a1, a2, a3, a4, a5, b1, b2, b3, b4, b5]
      simp only [Option.none_or, Bool.or_false]
      exact ⟨h1, h2, h3, h4, h5⟩
    cases op
    case update1 f =>
      obtain ⟨x, hx⟩ : ∃ x, o.upd1 f = { o with stage1 := x } := by
        unfold Obs.upd1 Obs.mod1
        split
        · exact ⟨_, rfl⟩
        · exact ⟨o.stage1, rfl⟩
      exact hsame (o.upd1 f) (by rw [hx]) (by rw [hx]) (by rw [hx]) (by rw [hx]) (by rw [hx]) rfl rfl rfl rfl rfl
    case update2 f =>
      obtain ⟨x, hx⟩ : ∃ x, o.upd2 f = { o with stage2 := x } := by
        unfold Obs.upd2 Obs.mod2
        split
        · exact ⟨_, rfl⟩
        · exact ⟨o.stage2, rfl⟩
      exact hsame (o.upd2 f) (by rw [hx]) (by rw [hx]) (by rw [hx]) (by rw [hx]) (by rw [hx]) rfl rfl rfl rfl rfl
    case startTimer t =>
      obtain ⟨x, hx⟩ : ∃ x, o.startTimer t = { o with startTime := x } := by
        unfold Obs.startTimer
        split
        · exact ⟨_, rfl⟩
        · exact ⟨o.startTime, rfl⟩
      exact hsame (o.startTimer t) (by rw [hx]) (by rw [hx]) (by rw [hx]) (by rw [hx]) (by rw [hx]) rfl rfl rfl rfl
        rfl
    case defaultCallback =>
      obtain ⟨x, hx⟩ := default_flags o
      exact hsame o.defaultCallback.1 (by rw [hx]) (by rw [hx]) (by rw [hx]) (by rw [hx]) (by rw [hx]) rfl rfl rfl
        rfl rfl
    case stage1Callback =>
      have hx := stage1Callback_id o
      exact hsame o.stage1Callback.1 (by rw [hx]) (by rw [hx]) (by rw [hx]) (by rw [hx]) (by rw [hx]) rfl rfl rfl
        rfl rfl
    case stage2Callback =>
      have hx := stage2Callback_id o
      exact hsame o.stage2Callback.1 (by rw [hx]) (by rw [hx]) (by rw [hx]) (by rw [hx]) (by rw [hx]) rfl rfl rfl
        rfl rfl
    case withFrequency f =>
      have hcb : (o.withFrequency f).callback = o.callback.or (some 0) := by
        unfold Obs.withFrequency
        cases h : o.callback <;> simp [Obs.withDefaultCallback, Obs.withCallback, defaultCb]
      have hr : ∃ c, o.withFrequency f = { o with frequency := f, callback := c } := by
        unfold Obs.withFrequency
        dsimp only
        split
        · exact ⟨_, rfl⟩
        · exact ⟨o.callback, rfl⟩
      obtain ⟨c, hc⟩ := hr
      refine ⟨?_, ?_, ?_, ?_, ?_⟩
      · show (o.withFrequency f).mode = _
        rw [hc]; exact h1
      · show (o.withFrequency f).frequency = _
        rw [hc]; rfl
      · show (o.withFrequency f).callback = _
        rw [hcb, h3]
        cases lastAsked ObsOp.callback? ops with
        | some x => rfl
        | none =>
          simp only [Option.none_or, ObsOp.frequency?, ObsOp.callback?, Option.some_or, Option.isSome_some,
            if_true]
          split <;> rfl
      · show (o.withFrequency f).trackTiming = _
        rw [hc]
        simpa [ObsOp.timing] using h4
      · show (o.withFrequency f).filterChanges = _
        rw [hc]
        simpa [ObsOp.unique] using h5
    case withMode m => exact ⟨rfl, h2, h3, h4.trans (Bool.or_false _).symm, h5.trans (Bool.or_false _).symm⟩
    case withCallback c =>
      exact ⟨h1, h2, rfl, h4.trans (Bool.or_false _).symm, h5.trans (Bool.or_false _).symm⟩
    case withDefaultCallback =>
      exact ⟨h1, h2, rfl, h4.trans (Bool.or_false _).symm, h5.trans (Bool.or_false _).symm⟩
    case withStage1Callback =>
      exact ⟨h1, h2, rfl, h4.trans (Bool.or_false _).symm, h5.trans (Bool.or_false _).symm⟩
    case withStage2Callback =>
      exact ⟨h1, h2, rfl, h4.trans (Bool.or_false _).symm, h5.trans (Bool.or_false _).symm⟩
    case withTiming => exact ⟨h1, h2, h3, (Bool.or_true _).symm, h5.trans (Bool.or_false _).symm⟩
    case uniqueUpdates => exact ⟨h1, h2, h3, h4.trans (Bool.or_false _).symm, (Bool.or_true _).symm⟩
    all_goals exact hsame _ rfl rfl rfl rfl rfl rfl rfl rfl rfl rfl

/-! ### C54 -/

/-- The reports of a stage-1 state: everything that can be done to it. -/
inductive Op1 (n : Nat) where
  | start (now : Nat)
  | finish (now : Nat)
  | refSize (k : Nat)
  | bestObjective (o : F64)
  | best (o : F64) (p : Pt n)
  | substage (s : Substage) (now : Nat)
  | evals (k : Nat)
  | trials (k : Nat)

def Op1.apply (s : Stage1 n) : Op1 n → Stage1 n
  | .start now => s.start now
  | .finish now => s.finish now
  | .refSize k => s.setRefSetSize k
  | .bestObjective o => s.setBestObjective o
  | .best o p => s.setBest o p
  | .substage x now => s.enterSubstage x now
  | .evals k => s.addEvals k
  | .trials k => s.addTrialPoints k

/-- The reports of a stage-2 state. -/
inductive Op2 (n : Nat) where
  | start (now : Nat)
  | finish (now : Nat)
  | iteration (k : Nat)
  | bestObjective (o : F64)
  | best (o : F64) (p : Pt n)
  | size (k : Nat)
  | threshold (t : F64)
  | call (improved : Bool)
  | evals (k : Nat)
  | unchanged (k : Nat)
  | lastAdded (p : Pt n)

def Op2.apply (s : Stage2 n) : Op2 n → Stage2 n
  | .start now => s.start now
  | .finish now => s.finish now
  | .iteration k => s.setIteration k
  | .bestObjective o => s.setBestObjective o
  | .best o p => s.setBest o p
  | .size k => s.setSize k
  | .threshold t => s.setThreshold t
  | .call b => s.addLocalCall b
  | .evals k => s.addEvals k
  | .unchanged k => s.setUnchanged k
  | .lastAdded p => s.setLastAdded p

/-- The reported objectives, with the point if one was reported. -/
def reported1 (ops : List (Op1 n)) : List (F64 × Option (Pt n)) :=
  ops.filterMap fun op => match op with
    | .best o p => some (o, some p)
    | .bestObjective o => some (o, none)
    | _ => none

def reported2 (ops : List (Op2 n)) : List (F64 × Option (Pt n)) :=
  ops.filterMap fun op => match op with
    | .best o p => some (o, some p)
    | .bestObjective o => some (o, none)
    | _ => none

/-- Number of reported local solver calls, and of those reported as improving. -/
def callsIn (ops : List (Op2 n)) : List Bool :=
  ops.filterMap fun op => match op with
    | .call b => some b
    | _ => none

/-- `b` is the minimum of the non-NaN reported objectives, `p` the first point reported with it. -/
inductive Best : List (F64 × Option (Pt n)) → F64 → Option (Pt n) → Prop where
  | none {l : List (F64 × Option (Pt n))} {b : F64} {p : Option (Pt n)} (hb : b.isNaN = true)
      (h : ∀ r ∈ l, r.1.isNaN = true) : Best l b p
  | some {pre post : List (F64 × Option (Pt n))} {o : F64} {q p : Option (Pt n)} (ho : o.isNaN = false)
      (hpre : ∀ r ∈ pre, r.1.isNaN = true ∨ F64.lt o r.1 = true)
      (hpost : ∀ r ∈ post, r.1.isNaN = true ∨ F64.le o r.1 = true)
      (hp : q.isSome = true → p = q) : Best (pre ++ (o, q) :: post) o p

theorem Best.step {l : List (F64 × Option (Pt n))} {b o : F64} {p q : Option (Pt n)} (h : Best l b p) :
    Best (l ++ [(o, q)]) (if b.isNaN || F64.lt o b then o else b)
      (if b.isNaN || F64.lt o b then q.or p else p) := by
  cases ho : o.isNaN with
  | true =>
    have hlt : F64.lt o b = false := by
      cases hb : F64.lt o b with
      | false => rfl
      | true => rw [lt_iff] at hb; rw [ho] at hb; cases hb.1
    rw [hlt, Bool.or_false]
    cases h with
    | none hb h =>
      rw [if_pos hb]
      refine .none ho fun r hr => ?_
      rw [List.mem_append, List.mem_singleton] at hr
      rcases hr with hr | rfl
      · exact h r hr
      · exact ho
    | some hb hpre hpost hp =>
      rw [hb, if_neg (by simp), if_neg (by simp), List.append_assoc, List.cons_append]
      refine .some hb hpre (fun r hr => ?_) hp
      rw [List.mem_append, List.mem_singleton] at hr
      rcases hr with hr | rfl
      · exact hpost r hr
      · exact Or.inl ho
  | false =>
    cases h with
    | none hb h =>
      rw [hb, Bool.true_or, if_pos rfl, if_pos rfl]
      refine .some (post := []) ho (fun r hr => Or.inl (h r hr)) (by simp) fun hq => ?_
      cases q with
      | none => cases hq
      | some q => rfl
    | @some pre post _ q' _ hb hpre hpost hp =>
      rw [hb, Bool.false_or]
      cases hlt : F64.lt o b with
      | true =>
        rw [if_pos rfl, if_pos rfl]
        refine .some (post := []) ho (fun r hr => ?_) (by simp) fun hq => ?_
        · rw [List.mem_append, List.mem_cons] at hr
          rcases hr with hr | rfl | hr
          · exact (hpre r hr).imp id fun h => lt_trans' hlt h
          · exact Or.inr hlt
          · exact (hpost r hr).imp id fun h => lt_of_lt_of_le' hlt h
        · cases q with
          | none => cases hq
          | some q => rfl
      | false =>
        rw [if_neg (by simp), if_neg (by simp), List.append_assoc, List.cons_append]
        refine .some hb hpre (fun r hr => ?_) hp
        rw [List.mem_append, List.mem_singleton] at hr
        rcases hr with hr | rfl
        · exact hpost r hr
        · exact Or.inr (le_of_not_lt ho hb hlt)

theorem best1_step (s : Stage1 n) (op : Op1 n) :
    (∃ o q, reported1 [op] = [(o, q)] ∧
      (op.apply s).bestObjective = (if s.bestObjective.isNaN || F64.lt o s.bestObjective then o
        else s.bestObjective) ∧
      (op.apply s).bestPoint = (if s.bestObjective.isNaN || F64.lt o s.bestObjective then q.or s.bestPoint
        else s.bestPoint)) ∨
    (reported1 [op] = [] ∧ (op.apply s).bestObjective = s.bestObjective ∧
      (op.apply s).bestPoint = s.bestPoint) := by
  cases op
  case best o p =>
    refine Or.inl ⟨o, some p, rfl, ?_⟩
    unfold Op1.apply Stage1.setBest
    dsimp only
    split <;> exact ⟨rfl, rfl⟩
  case bestObjective o =>
    refine Or.inl ⟨o, none, rfl, ?_⟩
    unfold Op1.apply Stage1.setBestObjective
    dsimp only
    split <;> exact ⟨rfl, rfl⟩
  case finish t =>
    refine Or.inr ⟨rfl, ?_⟩
    unfold Op1.apply Stage1.finish
    dsimp only
    split <;> exact ⟨rfl, rfl⟩
  case substage x t =>
    refine Or.inr ⟨rfl, ?_⟩
    unfold Op1.apply Stage1.enterSubstage
    dsimp only
    split <;> exact ⟨rfl, rfl⟩
  all_goals exact Or.inr ⟨rfl, rfl, rfl⟩

theorem best2_step (s : Stage2 n) (op : Op2 n) :
    (∃ o q, reported2 [op] = [(o, q)] ∧
      (op.apply s).bestObjective = (if s.bestObjective.isNaN || F64.lt o s.bestObjective then o
        else s.bestObjective) ∧
      (op.apply s).bestPoint = (if s.bestObjective.isNaN || F64.lt o s.bestObjective then q.or s.bestPoint
        else s.bestPoint)) ∨
    (reported2 [op] = [] ∧ (op.apply s).bestObjective = s.bestObjective ∧
      (op.apply s).bestPoint = s.bestPoint) := by
  cases op
  case best o p =>
    refine Or.inl ⟨o, some p, rfl, ?_⟩
    unfold Op2.apply Stage2.setBest
    dsimp only
    split <;> exact ⟨rfl, rfl⟩
  case bestObjective o =>
    refine Or.inl ⟨o, none, rfl, ?_⟩
    unfold Op2.apply Stage2.setBestObjective
    dsimp only
    split <;> exact ⟨rfl, rfl⟩
  case finish t =>
    refine Or.inr ⟨rfl, ?_⟩
    unfold Op2.apply Stage2.finish
    dsimp only
    split <;> exact ⟨rfl, rfl⟩
  case call b =>
    refine Or.inr ⟨rfl, ?_⟩
    unfold Op2.apply Stage2.addLocalCall
    dsimp only
    split <;> exact ⟨rfl, rfl⟩
  all_goals exact Or.inr ⟨rfl, rfl, rfl⟩

/-- C54, stage 1: after any sequence of reports the best objective is the minimum of the non-NaN ones
reported so far (NaN if there is none) and, if the minimum was first reported with a point, the best point
is that point. -/
theorem C54_best_stage1 (ops : List (Op1 n)) :
    Best (reported1 ops) (ops.foldl Op1.apply Stage1.new).bestObjective
      (ops.foldl Op1.apply Stage1.new).bestPoint := by
  induction ops using List.reverseRecOn with
  | nil => exact .none (show F64.nan.isNaN = true by decide +kernel) (by simp [reported1])
  | append_singleton ops op ih =>
    rw [List.foldl_append, List.foldl_cons, List.foldl_nil]
    rw [show reported1 (ops ++ [op]) = reported1 ops ++ reported1 [op] from List.filterMap_append ..]
    rcases best1_step (ops.foldl Op1.apply Stage1.new) op with ⟨o, q, h1, h2, h3⟩ | ⟨h1, h2, h3⟩
    · rw [h1, h2, h3]; exact ih.step
    · rw [h1, h2, h3, List.append_nil]; exact ih

/-- C54, stage 2: the same. -/
theorem C54_best_stage2 (ops : List (Op2 n)) :
    Best (reported2 ops) (ops.foldl Op2.apply Stage2.new).bestObjective
      (ops.foldl Op2.apply Stage2.new).bestPoint := by
  induction ops using List.reverseRecOn with
  | nil => exact .none (show F64.nan.isNaN = true by decide +kernel) (by simp [reported2])
  | append_singleton ops op ih =>
    rw [List.foldl_append, List.foldl_cons, List.foldl_nil]
    rw [show reported2 (ops ++ [op]) = reported2 ops ++ reported2 [op] from List.filterMap_append ..]
    rcases best2_step (ops.foldl Op2.apply Stage2.new) op with ⟨o, q, h1, h2, h3⟩ | ⟨h1, h2, h3⟩
    · rw [h1, h2, h3]; exact ih.step
    · rw [h1, h2, h3, List.append_nil]; exact ih

/-- C54: a best point that is there was reported. -/
theorem C54_point_reported (ops1 : List (Op1 n)) (ops2 : List (Op2 n)) :
    (∀ p, (ops1.foldl Op1.apply Stage1.new).bestPoint = some p → ∃ o, (o, some p) ∈ reported1 ops1) ∧
    (∀ p, (ops2.foldl Op2.apply Stage2.new).bestPoint = some p → ∃ o, (o, some p) ∈ reported2 ops2) := by
  constructor
  · induction ops1 using List.reverseRecOn with
    | nil => intro p hp; cases hp
    | append_singleton ops op ih =>
      intro p
      rw [List.foldl_append, List.foldl_cons, List.foldl_nil]
      rw [show reported1 (ops ++ [op]) = reported1 ops ++ reported1 [op] from List.filterMap_append ..]
      rcases best1_step (ops.foldl Op1.apply Stage1.new) op with ⟨o, q, h1, h2, h3⟩ | ⟨h1, h2, h3⟩
      · rw [h1, h3]
        intro hp
        by_cases hc : ((ops.foldl Op1.apply Stage1.new).bestObjective.isNaN ||
            F64.lt o (ops.foldl Op1.apply Stage1.new).bestObjective) = true
        · rw [if_pos hc] at hp
          cases q with
          | none =>
            obtain ⟨o', h⟩ := ih p hp
            exact ⟨o', List.mem_append_left _ h⟩
          | some q => cases hp; exact ⟨o, by simp⟩
        · rw [if_neg hc] at hp
          obtain ⟨o', h⟩ := ih p hp
          exact ⟨o', List.mem_append_left _ h⟩
      · rw [h1, h3, List.append_nil]; exact ih p
  · induction ops2 using List.reverseRecOn with
    | nil => intro p hp; cases hp
    | append_singleton ops op ih =>
      intro p
      rw [List.foldl_append, List.foldl_cons, List.foldl_nil]
      rw [show reported2 (ops ++ [op]) = reported2 ops ++ reported2 [op] from List.filterMap_append ..]
      rcases best2_step (ops.foldl Op2.apply Stage2.new) op with ⟨o, q, h1, h2, h3⟩ | ⟨h1, h2, h3⟩
      · rw [h1, h3]
        intro hp
        by_cases hc : ((ops.foldl Op2.apply Stage2.new).bestObjective.isNaN ||
            F64.lt o (ops.foldl Op2.apply Stage2.new).bestObjective) = true
        · rw [if_pos hc] at hp
          cases q with
          | none =>
            obtain ⟨o', h⟩ := ih p hp
            exact ⟨o', List.mem_append_left _ h⟩
          | some q => cases hp; exact ⟨o, by simp⟩
        · rw [if_neg hc] at hp
          obtain ⟨o', h⟩ := ih p hp
          exact ⟨o', List.mem_append_left _ h⟩
      · rw [h1, h3, List.append_nil]; exact ih p

/-- C54, counters of stage 2: the number of local solver calls is the number of reports, the improved
ones are those reported as improving. -/
theorem C54_calls (ops : List (Op2 n)) :
    (ops.foldl Op2.apply Stage2.new).localCalls = (callsIn ops).length ∧
      (ops.foldl Op2.apply Stage2.new).improvedCalls = (callsIn ops).countP id := by
  induction ops using List.reverseRecOn with
  | nil => exact ⟨rfl, rfl⟩
  | append_singleton ops op ih =>
    obtain ⟨h1, h2⟩ := ih
    rw [List.foldl_append, List.foldl_cons, List.foldl_nil]
    rw [show callsIn (ops ++ [op]) = callsIn ops ++ callsIn [op] from List.filterMap_append ..,
      List.length_append, List.countP_append, ← h1, ← h2]
    generalize ops.foldl Op2.apply Stage2.new = s
    cases op
    case call b =>
      unfold Op2.apply Stage2.addLocalCall
      cases b <;> exact ⟨rfl, rfl⟩
    case finish t =>
      unfold Op2.apply Stage2.finish
      dsimp only
      split <;> exact ⟨rfl, rfl⟩
    case bestObjective o =>
      unfold Op2.apply Stage2.setBestObjective
      dsimp only
      split <;> exact ⟨rfl, rfl⟩
    case best o p =>
      unfold Op2.apply Stage2.setBest
      dsimp only
      split <;> exact ⟨rfl, rfl⟩
    all_goals exact ⟨rfl, rfl⟩

/-- C54: improved calls never exceed calls. -/
theorem C54_improved_le (ops : List (Op2 n)) :
    (ops.foldl Op2.apply Stage2.new).improvedCalls ≤ (ops.foldl Op2.apply Stage2.new).localCalls := by
  rw [(C54_calls ops).1, (C54_calls ops).2]
  exact List.countP_le_length

theorem mono2 (s : Stage2 n) (ops : List (Op2 n)) :
    s.localCalls ≤ (ops.foldl Op2.apply s).localCalls ∧
      s.improvedCalls ≤ (ops.foldl Op2.apply s).improvedCalls ∧
      s.functionEvaluations ≤ (ops.foldl Op2.apply s).functionEvaluations := by
  induction ops generalizing s with
  | nil => exact ⟨Nat.le_refl _, Nat.le_refl _, Nat.le_refl _⟩
  | cons op ops ih =>
    obtain ⟨h1, h2, h3⟩ := ih (op.apply s)
    rw [List.foldl_cons]
    have : s.localCalls ≤ (op.apply s).localCalls ∧ s.improvedCalls ≤ (op.apply s).improvedCalls ∧
        s.functionEvaluations ≤ (op.apply s).functionEvaluations := by
      cases op <;> simp only [Op2.apply, Stage2.start, Stage2.finish, Stage2.setIteration,
        Stage2.setBestObjective, Stage2.setBest, Stage2.setSize, Stage2.setThreshold,
        Stage2.addLocalCall, Stage2.addEvals, Stage2.setUnchanged, Stage2.setLastAdded] <;>
        (try split) <;> simp
    exact ⟨this.1.trans h1, this.2.1.trans h2, this.2.2.trans h3⟩

theorem mono1 (s : Stage1 n) (ops : List (Op1 n)) :
    s.functionEvaluations ≤ (ops.foldl Op1.apply s).functionEvaluations ∧
      s.trialPoints ≤ (ops.foldl Op1.apply s).trialPoints := by
  induction ops generalizing s with
  | nil => exact ⟨Nat.le_refl _, Nat.le_refl _⟩
  | cons op ops ih =>
    obtain ⟨h1, h2⟩ := ih (op.apply s)
    rw [List.foldl_cons]
    have : s.functionEvaluations ≤ (op.apply s).functionEvaluations ∧
        s.trialPoints ≤ (op.apply s).trialPoints := by
      cases op <;> simp only [Op1.apply, Stage1.start, Stage1.finish, Stage1.setRefSetSize,
        Stage1.setBestObjective, Stage1.setBest, Stage1.enterSubstage, Stage1.addEvals,
        Stage1.addTrialPoints] <;> (try split) <;> simp
    exact ⟨this.1.trans h1, this.2.trans h2⟩

/-- C54: counters never decrease, whatever is reported after `a`. -/
theorem C54_monotone (a1 b1 : List (Op1 n)) (a2 b2 : List (Op2 n)) :
    ((a1.foldl Op1.apply Stage1.new).functionEvaluations ≤
        ((a1 ++ b1).foldl Op1.apply Stage1.new).functionEvaluations ∧
      (a1.foldl Op1.apply Stage1.new).trialPoints ≤
        ((a1 ++ b1).foldl Op1.apply Stage1.new).trialPoints) ∧
    (a2.foldl Op2.apply Stage2.new).localCalls ≤
        ((a2 ++ b2).foldl Op2.apply Stage2.new).localCalls ∧
      (a2.foldl Op2.apply Stage2.new).improvedCalls ≤
        ((a2 ++ b2).foldl Op2.apply Stage2.new).improvedCalls ∧
      (a2.foldl Op2.apply Stage2.new).functionEvaluations ≤
        ((a2 ++ b2).foldl Op2.apply Stage2.new).functionEvaluations := by
  rw [List.foldl_append, List.foldl_append]
  exact ⟨mono1 _ b1, mono2 _ b2⟩

example : (([.best F64.two (pt F64.two), .best F64.nan (pt F64.zero), .best F64.one (pt F64.one),
    .call true] : List (Op2 1)).foldl Op2.apply Stage2.new).bestPoint = some (pt F64.one) := by
  decide +kernel

/-- Evaluations, and trial points, reported in stage 1. -/
def evals1 (ops : List (Op1 n)) : Nat := (ops.map fun op => match op with | .evals k => k | _ => 0).sum
def trials1 (ops : List (Op1 n)) : Nat := (ops.map fun op => match op with | .trials k => k | _ => 0).sum
/-- Evaluations reported in stage 2. -/
def evals2 (ops : List (Op2 n)) : Nat := (ops.map fun op => match op with | .evals k => k | _ => 0).sum

/-- What an operation of stage 1 or 2 sets. -/
def Op1.refSize? : Op1 n → Option Nat
  | .refSize k => some k
  | _ => none
def Op1.substage? : Op1 n → Option Substage
  | .substage x _ => some x
  | _ => none
def Op2.iteration? : Op2 n → Option Nat
  | .iteration k => some k
  | _ => none
def Op2.size? : Op2 n → Option Nat
  | .size k => some k
  | _ => none
def Op2.threshold? : Op2 n → Option F64
  | .threshold t => some t
  | _ => none
def Op2.unchanged? : Op2 n → Option Nat
  | .unchanged k => some k
  | _ => none
def Op2.lastAdded? : Op2 n → Option (Pt n)
  | .lastAdded p => some p
  | _ => none

/-- C54, stage 1: evaluations and trial points are the sums of what was reported, the size of the reference set and
the substage the last ones reported. -/
theorem C54_totals_stage1 (ops : List (Op1 n)) :
    (ops.foldl Op1.apply Stage1.new).functionEvaluations = evals1 ops ∧
    (ops.foldl Op1.apply Stage1.new).trialPoints = trials1 ops ∧
    (ops.foldl Op1.apply Stage1.new).refSetSize = (lastAsked Op1.refSize? ops).getD 0 ∧
    (ops.foldl Op1.apply Stage1.new).substage = (lastAsked Op1.substage? ops).getD .notStarted := by
  induction ops using List.reverseRecOn with
  | nil => exact ⟨rfl, rfl, rfl, rfl⟩
  | append_singleton ops op ih =>
    obtain ⟨h1, h2, h3, h4⟩ := ih
    simp only [List.foldl_append, List.foldl_cons, List.foldl_nil, lastAsked_snoc, evals1, trials1, List.map_append,
      List.sum_append, List.map_cons, List.map_nil, List.sum_cons, List.sum_nil, Nat.add_zero]
    simp only [evals1, trials1] at h1 h2
    rw [← h1, ← h2]
    generalize ops.foldl Op1.apply Stage1.new = s at *
    cases op <;> simp only [Op1.apply, Stage1.start, Stage1.finish, Stage1.setRefSetSize,
      Stage1.setBestObjective, Stage1.setBest, Stage1.enterSubstage, Stage1.addEvals,
      Stage1.addTrialPoints, Op1.refSize?, Op1.substage?, Option.none_or, Option.some_or, Option.getD_some,
      Nat.add_zero] <;> (try split) <;> refine ⟨?_, ?_, ?_, ?_⟩ <;>
      trivial

/-- C54, stage 2: evaluations are the sum of what was reported; iteration, size of the solution set, threshold,
unchanged cycles and last added point are the last ones reported. -/
theorem C54_totals_stage2 (ops : List (Op2 n)) :
    (ops.foldl Op2.apply Stage2.new).functionEvaluations = evals2 ops ∧
    (ops.foldl Op2.apply Stage2.new).iteration = (lastAsked Op2.iteration? ops).getD 0 ∧
    (ops.foldl Op2.apply Stage2.new).solutionSetSize = (lastAsked Op2.size? ops).getD 0 ∧
    (ops.foldl Op2.apply Stage2.new).threshold = (lastAsked Op2.threshold? ops).getD F64.inf ∧
    (ops.foldl Op2.apply Stage2.new).unchangedCycles = (lastAsked Op2.unchanged? ops).getD 0 ∧
    (ops.foldl Op2.apply Stage2.new).lastAdded = lastAsked Op2.lastAdded? ops := by
  induction ops using List.reverseRecOn with
  | nil => exact ⟨rfl, rfl, rfl, rfl, rfl, rfl⟩
  | append_singleton ops op ih =>
    obtain ⟨h1, h2, h3, h4, h5, h6⟩ := ih
    simp only [List.foldl_append, List.foldl_cons, List.foldl_nil, lastAsked_snoc, evals2, List.map_append,
      List.sum_append, List.map_cons, List.map_nil, List.sum_cons, List.sum_nil, Nat.add_zero]
    simp only [evals2] at h1
    rw [← h1]
    generalize ops.foldl Op2.apply Stage2.new = s at *
    cases op <;> simp only [Op2.apply, Stage2.start, Stage2.finish, Stage2.setIteration,
      Stage2.setBestObjective, Stage2.setBest, Stage2.setSize, Stage2.setThreshold, Stage2.addLocalCall,
      Stage2.addEvals, Stage2.setUnchanged, Stage2.setLastAdded, Op2.iteration?, Op2.size?, Op2.threshold?,
      Op2.unchanged?, Op2.lastAdded?, Option.none_or, Option.some_or, Option.getD_some,
      Nat.add_zero] <;> (try split) <;> refine ⟨?_, ?_, ?_, ?_, ?_, ?_⟩ <;>
      trivial

/-! ### C58 -/

/-- Showing the stage-2 states `l` one after the other to the default callback of `o`: the final observer
and what was printed for each state. -/
def feed (o : Obs n) : List (Stage2 n) → Obs n × List (List (Obs.Line n))
  | [] => (o, [])
  | s :: l =>
    let r := Obs.defaultCallback { o with stage2 := some s }
    let r' := feed r.1 l
    (r'.1, r.2 :: r'.2)

/-- One of the six numbers that are compared differs (floats by `!=`). -/
def Differs (a b : Stage2 n) : Prop :=
  F64.feq a.bestObjective b.bestObjective = false ∨ a.solutionSetSize ≠ b.solutionSetSize ∨
  F64.feq a.threshold b.threshold = false ∨ a.localCalls ≠ b.localCalls ∨
  a.improvedCalls ≠ b.improvedCalls ∨ a.functionEvaluations ≠ b.functionEvaluations

/-- The last state of a list that has an iteration number above 0. -/
def lastShown (l : List (Stage2 n)) : Option (Stage2 n) :=
  (l.filter fun s => decide (0 < s.iteration)).getLast?

theorem hasChanged_iff (a b : Stage2 n) : (PrevStage2.ofStage2 a).hasChanged b = true ↔ Differs a b := by
  unfold PrevStage2.hasChanged PrevStage2.ofStage2 Differs
  simp only [Bool.or_eq_true, Bool.not_eq_true', bne_iff_ne, ne_eq]
  tauto

/-- `feed` keeps what it depends on. -/
theorem feed_keeps (o : Obs n) (l : List (Stage2 n)) :
    ((feed o l).1.stage1 = o.stage1 ∧ (feed o l).1.stage1Completed = o.stage1Completed ∧
      (feed o l).1.stage2Started = o.stage2Started ∧ (feed o l).1.filterChanges = o.filterChanges) := by
  induction l generalizing o with
  | nil => exact ⟨rfl, rfl, rfl, rfl⟩
  | cons s l ih =>
    obtain ⟨p, hp⟩ := default_flags { o with stage2 := some s }
    have := ih (Obs.defaultCallback { o with stage2 := some s }).1
    unfold feed
    dsimp only
    rw [hp] at this ⊢
    exact this

theorem feed_append (o : Obs n) (a b : List (Stage2 n)) :
    feed o (a ++ b) = ((feed (feed o a).1 b).1, (feed o a).2 ++ (feed (feed o a).1 b).2) := by
  induction a generalizing o with
  | nil => rfl
  | cons s a ih =>
    rw [List.cons_append]
    simp only [feed, ih, List.cons_append]

/-- What the default callback does in stage 2. -/
theorem default_stage2 (o : Obs n) (s : Stage2 n) (h1 : o.getStage1 = none) (h2 : o.getStage2 = some s) :
    o.defaultCallback = if 0 < s.iteration then
      if o.filterChanges = true then
        ({ o with prev := some (PrevStage2.ofStage2 s) },
          if (∀ p, o.prev = some p → p.hasChanged s = true) then [Obs.stage2Line s] else [])
      else (o, [Obs.stage2Line s])
    else (o, []) := by
  unfold Obs.defaultCallback
  rw [h1]
  dsimp only
  unfold Obs.defaultStage2
  rw [h2]
  dsimp only
  cases hp : o.prev with
  | none => simp
  | some p => simp

theorem feed_prev (o : Obs n) (l : List (Stage2 n)) (h1 : o.getStage1 = none)
    (h2 : o.stage2Started = true) (hf : o.filterChanges = true) (hp : o.prev = none) :
    (feed o l).1.prev = (lastShown l).map PrevStage2.ofStage2 := by
  induction l using List.reverseRecOn with
  | nil => exact hp
  | append_singleton l s ih =>
    obtain ⟨k1, k2, k3, k4⟩ := feed_keeps o l
    rw [feed_append]
    generalize hb : (feed o l).1 = b at *
    dsimp only [feed]
    have g1 : ({ b with stage2 := some s } : Obs n).getStage1 = none := by
      unfold Obs.getStage1 at h1 ⊢
      dsimp only
      rw [k2, k1]; exact h1
    have g2 : ({ b with stage2 := some s } : Obs n).getStage2 = some s := by
      unfold Obs.getStage2
      dsimp only
      rw [k3, h2, if_pos rfl]
    rw [default_stage2 _ s g1 g2]
    unfold lastShown at ih ⊢
    rw [List.filter_append]
    by_cases hs : 0 < s.iteration
    · rw [if_pos hs, if_pos (k4.trans hf)]
      rw [List.filter_cons_of_pos (by simpa using hs)]
      simp
    · rw [if_neg hs, List.filter_cons_of_neg (by simpa using hs), List.filter_nil, List.append_nil]
      exact ih

/-- C58 (partial): with `unique_updates`, after stage 1 and in stage 2, whatever states were shown before,
the default callback prints a line for a state exactly if its iteration number is above 0 and it is the
first such state or one of best objective, set size, threshold, local calls, improved calls and evaluations
differs (`!=` of floats) from the last such state.  The full property asks for every number of the line to
be compared and for nothing else: see `C58_iteration_violated`, `C58_point_violated`, `C58_nan_violated`,
`C58_hidden_violated`. -/
theorem C58_changes_partial (o : Obs n) (pre : List (Stage2 n)) (s : Stage2 n) (h1 : o.getStage1 = none)
    (h2 : o.stage2Started = true) (hf : o.filterChanges = true) (hp : o.prev = none) :
    ∃ before last, (feed o (pre ++ [s])).2 = before ++ [last] ∧ before.length = pre.length ∧
      (last = [Obs.stage2Line s] ∧ 0 < s.iteration ∧ (∀ q, lastShown pre = some q → Differs q s) ∨
       last = [] ∧ (s.iteration = 0 ∨ ∃ q, lastShown pre = some q ∧ ¬ Differs q s)) := by
  obtain ⟨k1, k2, k3, k4⟩ := feed_keeps o pre
  have k5 := feed_prev o pre h1 h2 hf hp
  have hlen : ∀ (o : Obs n) (l : List (Stage2 n)), (feed o l).2.length = l.length := by
    intro o l
    induction l generalizing o with
    | nil => rfl
    | cons s l ih =>
      unfold feed
      dsimp only
      rw [List.length_cons, List.length_cons, ih]
  rw [feed_append]
  refine ⟨(feed o pre).2, _, rfl, hlen o pre, ?_⟩
  generalize (feed o pre).1 = b at *
  have g1 : ({ b with stage2 := some s } : Obs n).getStage1 = none := by
    unfold Obs.getStage1 at h1 ⊢
    dsimp only
    rw [k2, k1]; exact h1
  have g2 : ({ b with stage2 := some s } : Obs n).getStage2 = some s := by
    unfold Obs.getStage2
    dsimp only
    rw [k3, h2, if_pos rfl]
  rw [default_stage2 _ s g1 g2]
  by_cases hs : 0 < s.iteration
  · rw [if_pos hs, if_pos (k4.trans hf)]
    dsimp only
    rw [k5]
    cases hl : lastShown pre with
    | none => simp [hs]
    | some q =>
      by_cases hd : Differs q s
      · rw [if_pos (by
          intro p hp
          cases hp
          exact (hasChanged_iff q s).2 hd)]
        exact Or.inl ⟨rfl, hs, fun q' hq => by cases hq; exact hd⟩
      · rw [if_neg (fun h => hd ((hasChanged_iff q s).1 (h _ rfl)))]
        exact Or.inr ⟨rfl, Or.inr ⟨q, rfl, hd⟩⟩
  · rw [if_neg hs]; exact Or.inr ⟨rfl, Or.inl (by omega)⟩

/-- C58: without `unique_updates` every state with an iteration number above 0 is printed. -/
theorem C58_all (o : Obs n) (s : Stage2 n) (h1 : o.getStage1 = none) (h2 : o.getStage2 = some s)
    (hf : o.filterChanges = false) :
    o.defaultCallback = (o, if 0 < s.iteration then [Obs.stage2Line s] else []) := by
  rw [default_stage2 o s h1 h2, hf]
  by_cases hs : 0 < s.iteration
  · rw [if_pos hs, if_pos hs]; rfl
  · rw [if_neg hs, if_neg hs]

/-- An observer in stage 2 with `unique_updates`. -/
def uniq : Obs 1 :=
  ((Obs.new.withStage2.withDefaultCallback).uniqueUpdates).markStage2Started

example : uniq.getStage1 = none ∧ uniq.stage2Started = true ∧ uniq.filterChanges = true ∧
    uniq.prev = none := ⟨rfl, rfl, rfl, rfl⟩

/-- A stage-2 state. -/
def shown (iter : Nat) (best : F64) (last : Option (Pt 1)) (improved : Nat) : Stage2 1 :=
  { Stage2.new with
    bestObjective := best
    lastAdded := last
    iteration := iter
    improvedCalls := improved }

/-- C58 fails: a line whose iteration number changed is not printed. -/
theorem C58_iteration_violated : ∃ a b : Stage2 1, Obs.stage2Line a ≠ Obs.stage2Line b ∧
    (feed uniq [a, b]).2 = [[Obs.stage2Line a], []] :=
  ⟨shown 1 F64.one none 0, shown 2 F64.one none 0, by decide +kernel, by decide +kernel⟩

/-- C58 fails: a line whose point changed is not printed. -/
theorem C58_point_violated : ∃ a b : Stage2 1, Obs.stage2Line a ≠ Obs.stage2Line b ∧
    a.iteration = b.iteration ∧ (feed uniq [a, b]).2 = [[Obs.stage2Line a], []] :=
  ⟨shown 1 F64.one (some (pt F64.zero)) 0, shown 1 F64.one (some (pt F64.one)) 0, by decide +kernel, rfl,
    by decide +kernel⟩

/-- C58 fails: with a NaN best objective an unchanged line is printed again. -/
theorem C58_nan_violated : ∃ a : Stage2 1, (feed uniq [a, a]).2 = [[Obs.stage2Line a], [Obs.stage2Line a]] :=
  ⟨shown 1 F64.nan none 0, by decide +kernel⟩

/-- C58 fails: a change of a number that is not displayed prints the same line again. -/
theorem C58_hidden_violated : ∃ a b : Stage2 1, Obs.stage2Line a = Obs.stage2Line b ∧
    a.bestObjective.isNaN = false ∧ (feed uniq [a, b]).2 = [[Obs.stage2Line a], [Obs.stage2Line b]] :=
  ⟨shown 1 F64.one none 0, shown 1 F64.one none 1, by decide +kernel, by decide +kernel,
    by decide +kernel⟩

/-! ### C60 -/

/-- C60 (partial): a stage that was never started reports no time, and a stage reports at the moment it
ends the time since it started.  The full property asks for the same answer at every later moment, see
`C60_violated`. -/
theorem C60_total_partial (t0 t1 now : Nat) :
    (Stage1.new : Stage1 n).totalTime now = none ∧ (Stage2.new : Stage2 n).totalTime now = none ∧
    ∀ (s1 : Stage1 n) (s2 : Stage2 n), ((s1.start t0).finish t1).totalTime t1 = some (t1 - t0) ∧
      ((s1.start t0).finish t1).totalTimeField = some (t1 - t0) ∧
      ((s2.start t0).finish t1).totalTime t1 = some (t1 - t0) ∧
      ((s2.start t0).finish t1).totalTimeField = some (t1 - t0) :=
  ⟨rfl, rfl, fun _ _ => ⟨rfl, rfl, rfl, rfl⟩⟩

/-- C60 fails, for every stage and every clock: what `total_time` returns after the end of a stage keeps
growing with the clock. -/
theorem C60_violated (s1 : Stage1 n) (s2 : Stage2 n) (t0 t1 now : Nat) (h0 : t0 ≤ t1) (h : t1 < now) :
    ((s1.start t0).finish t1).totalTime now ≠ ((s1.start t0).finish t1).totalTime t1 ∧
    ((s2.start t0).finish t1).totalTime now ≠ ((s2.start t0).finish t1).totalTime t1 := by
  have h1 : ((s1.start t0).finish t1).totalTime now = some (now - t0) := rfl
  have h2 : ((s2.start t0).finish t1).totalTime now = some (now - t0) := rfl
  rw [h1, h2, show ((s1.start t0).finish t1).totalTime t1 = some (t1 - t0) from rfl,
    show ((s2.start t0).finish t1).totalTime t1 = some (t1 - t0) from rfl]
  simp only [ne_eq, Option.some.injEq]
  omega

/-- C60: the time shown for the last substage is that between entering it and entering the next one, whatever was
reported in between. -/
theorem C60_substage (s : Stage1 n) (a b : Substage) (t0 t1 : Nat) (ops : List (Op1 n))
    (h : ∀ x now, .substage x now ∉ ops) :
    ((ops.foldl Op1.apply (s.enterSubstage a t0)).enterSubstage b t1).substageTime = some (t1 - t0) := by
  have key : ∀ (ops : List (Op1 n)) (s : Stage1 n), (∀ x now, .substage x now ∉ ops) →
      (ops.foldl Op1.apply s).substageStart = s.substageStart := by
    intro ops
    induction ops with
    | nil => intro s _; rfl
    | cons op ops ih =>
      intro s h
      rw [List.foldl_cons, ih _ fun x now hm => h x now (List.mem_cons_of_mem _ hm)]
      cases op
      case substage x now => exact absurd List.mem_cons_self (h x now)
      all_goals
        simp only [Op1.apply, Stage1.start, Stage1.finish, Stage1.setRefSetSize, Stage1.setBestObjective,
          Stage1.setBest, Stage1.addEvals, Stage1.addTrialPoints]
      all_goals try split
      all_goals rfl
  have := key ops (s.enterSubstage a t0) h
  generalize ops.foldl Op1.apply (s.enterSubstage a t0) = u at *
  have h0 : (s.enterSubstage a t0).substageStart = some t0 := rfl
  rw [h0] at this
  unfold Stage1.enterSubstage
  rw [this]

/-- C60: the observer's own timer runs exactly if timing was enabled. -/
theorem C60_elapsed (o : Obs n) (t0 now : Nat) :
    (o.withTiming.startTimer t0).elapsedTime now = some (now - t0) ∧
    (o.trackTiming = false → (o.startTimer t0).elapsedTime now = o.elapsedTime now) := by
  refine ⟨rfl, fun h => ?_⟩
  unfold Obs.startTimer
  rw [h]
  rfl

end GS.Props
