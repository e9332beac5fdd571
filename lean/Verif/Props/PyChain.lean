/- C124: configuring observers in Python by statements and by chained calls. -/
import Verif.Model.PyChain
import Verif.Props.Python

namespace GS.Props
open GS GS.Py
variable {n : Nat}

theorem statements_foldl (l : List PyObsOp) (o : PyObs n) : o.statements l = (l.foldl PyObs.apply o, .ok ()) := by
  induction l generalizing o with
  | nil => rfl
  | cons op l ih => exact ih _

/-- A part of an observer that no call of a list touches. -/
theorem untouched {β : Type} (f : PyObs n → β) {l : List PyObsOp} (h : ∀ op ∈ l, ∀ o, f (PyObs.apply o op) = f o)
    (o : PyObs n) : f (l.foldl PyObs.apply o) = f o := by
  induction l generalizing o with
  | nil => rfl
  | cons op l ih =>
    rw [List.foldl_cons, ih (fun op' h' => h op' (List.mem_cons_of_mem _ h')), h op List.mem_cons_self]

/-- A value of a part of an observer that a call sets and no call removes. -/
theorem once {β : Type} (f : PyObs n → β) {v : β} {op : PyObsOp} (hs : ∀ o, f (PyObs.apply o op) = v)
    (hk : ∀ op' o, f o = v → f (PyObs.apply o op') = v) {l : List PyObsOp} (h : op ∈ l) (o : PyObs n) :
    f (l.foldl PyObs.apply o) = v := by
  obtain ⟨a, b, rfl⟩ := List.append_of_mem h
  rw [List.foldl_append, List.foldl_cons]
  have hv := hs (a.foldl PyObs.apply o)
  generalize PyObs.apply (a.foldl PyObs.apply o) op = o' at hv
  clear h
  induction b generalizing o' with
  | nil => exact hv
  | cons op' b ih => exact ih _ (hk op' _ hv)

theorem frequency_apply (o : PyObs n) (f : Nat) : (o.apply (.frequency f)).inner.stage1 = o.inner.stage1 ∧
    (o.apply (.frequency f)).inner.stage2 = o.inner.stage2 ∧
    (o.apply (.frequency f)).inner.trackTiming = o.inner.trackTiming ∧
    (o.apply (.frequency f)).inner.filterChanges = o.inner.filterChanges ∧
    (o.apply (.frequency f)).inner.mode = o.inner.mode ∧ (o.apply (.frequency f)).inner.frequency = f := by
  simp only [PyObs.apply, Obs.withFrequency]
  split <;> exact ⟨rfl, rfl, rfl, rfl, rfl, rfl⟩

/-- C124 (partial): configuring an observer by one statement per call never fails. Afterwards each stage is tracked, from
the initial state, iff its tracking was turned on at least once, in any order; timing and filtering are on iff turned on;
the mode and the frequency are the last ones set, by default both stages and every iteration. Missing: chained calls
(`C124_chain_violated`, `C124_one_violated`). -/
theorem C124_statements_partial (l : List PyObsOp) : ∃ o : PyObs n, PyObs.new.statements l = (o, .ok ()) ∧
    (.stage1Tracking ∈ l → o.inner.stage1 = some Stage1.new) ∧ (.stage1Tracking ∉ l → o.inner.stage1 = none) ∧
    (.stage2Tracking ∈ l → o.inner.stage2 = some Stage2.new) ∧ (.stage2Tracking ∉ l → o.inner.stage2 = none) ∧
    (o.inner.trackTiming = true ↔ .timing ∈ l) ∧ (o.inner.filterChanges = true ↔ .uniqueUpdates ∈ l) ∧
    (∀ a b m, l = a ++ .mode m :: b → (∀ m', .mode m' ∉ b) → o.inner.mode = m) ∧
    ((∀ m, .mode m ∉ l) → o.inner.mode = .both) ∧
    (∀ a b f, l = a ++ .frequency f :: b → (∀ f', .frequency f' ∉ b) → o.inner.frequency = f) ∧
    ((∀ f, .frequency f ∉ l) → o.inner.frequency = 1) := by
  refine ⟨l.foldl PyObs.apply PyObs.new, statements_foldl l _, ?_, ?_, ?_, ?_, ⟨?_, ?_⟩, ⟨?_, ?_⟩, ?_, ?_, ?_, ?_⟩
  · intro h
    refine once (fun o => o.inner.stage1) (fun _ => rfl) (fun op o ho => ?_) h _
    cases op <;> first | exact ho | rfl | exact (frequency_apply o _).1.trans ho
  · intro h
    refine untouched (fun o => o.inner.stage1) (fun op hop o => ?_) _
    cases op <;> first | rfl | exact (frequency_apply o _).1 | exact absurd hop h
  · intro h
    refine once (fun o => o.inner.stage2) (fun _ => rfl) (fun op o ho => ?_) h _
    cases op <;> first | exact ho | rfl | exact (frequency_apply o _).2.1.trans ho
  · intro h
    refine untouched (fun o => o.inner.stage2) (fun op hop o => ?_) _
    cases op <;> first | rfl | exact (frequency_apply o _).2.1 | exact absurd hop h
  · intro ht
    by_contra h
    rw [untouched (fun o => o.inner.trackTiming) (fun op hop o => ?_) _] at ht
    · cases ht
    · cases op <;> first | rfl | exact (frequency_apply o _).2.2.1 | exact absurd hop h
  · intro h
    refine once (fun o => o.inner.trackTiming) (fun _ => rfl) (fun op o ho => ?_) h _
    cases op <;> first | exact ho | rfl | exact (frequency_apply o _).2.2.1.trans ho
  · intro ht
    by_contra h
    rw [untouched (fun o => o.inner.filterChanges) (fun op hop o => ?_) _] at ht
    · cases ht
    · cases op <;> first | rfl | exact (frequency_apply o _).2.2.2.1 | exact absurd hop h
  · intro h
    refine once (fun o => o.inner.filterChanges) (fun _ => rfl) (fun op o ho => ?_) h _
    cases op <;> first | exact ho | rfl | exact (frequency_apply o _).2.2.2.1.trans ho
  · rintro a b m rfl hb
    rw [List.foldl_append, List.foldl_cons]
    refine (untouched (fun o => o.inner.mode) (fun op hop o => ?_) _).trans rfl
    cases op <;> first | rfl | exact (frequency_apply o _).2.2.2.2.1 | exact absurd hop (hb _)
  · intro h
    refine untouched (fun o => o.inner.mode) (fun op hop o => ?_) _
    cases op <;> first | rfl | exact (frequency_apply o _).2.2.2.2.1 | exact absurd hop (h _)
  · rintro a b f rfl hb
    rw [List.foldl_append, List.foldl_cons]
    refine (untouched (fun o => o.inner.frequency) (fun op hop o => ?_) _).trans (frequency_apply _ _).2.2.2.2.2
    cases op <;> first | rfl | exact absurd hop (hb _)
  · intro h
    refine untouched (fun o => o.inner.frequency) (fun op hop o => ?_) _
    cases op <;> first | rfl | exact absurd hop (h _)

/-- C124 is violated: two or more chained calls raise an `AttributeError` after the first. -/
theorem C124_chain_violated (o : PyObs n) (a b : PyObsOp) (l : List PyObsOp) :
    o.chain .observer (a :: b :: l) = (o.apply a, .error .attributeError) := by
  cases a <;> rfl

/-- The example in the documentation of `optimize` (python/src/lib.rs 745). -/
example : (PyObs.new (n := n)).chain .observer [.stage1Tracking, .stage2Tracking, .defaultCallback] =
    (PyObs.new.apply .stage1Tracking, .error .attributeError) := C124_chain_violated _ _ _ _

/-- C124 is violated: `observer = gs.observers.Observer().with_…()` binds `None`, and an `optimize` to which this is
passed has no observer. -/
theorem C124_one_violated (op : PyObsOp) : ∃ o v, (PyObs.new (n := n)).chain .observer [op] = (o, .ok v) ∧
    o.argument v = none := by
  cases op <;> exact ⟨_, _, rfl, rfl⟩

/-- Statements in any order: stage 2 before stage 1, the mode set twice. -/
example : ∃ o : PyObs n, PyObs.new.statements [.stage2Tracking, .mode .stage1Only, .stage1Tracking, .mode .stage2Only] =
    (o, .ok ()) ∧ o.inner.stage1 = some Stage1.new ∧ o.inner.mode = .stage2Only ∧ o.inner.frequency = 1 := by
  obtain ⟨o, h, h1, -, -, -, -, -, h2, -, -, h3⟩ :=
    C124_statements_partial (n := n) [.stage2Tracking, .mode .stage1Only, .stage1Tracking, .mode .stage2Only]
  exact ⟨o, h, h1 (by simp), h2 [.stage2Tracking, .mode .stage1Only, .stage1Tracking] [] _ rfl (by simp), h3 (by simp)⟩

end GS.Props
