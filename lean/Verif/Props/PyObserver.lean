/- C79: what a Python observer shows after `optimize`. -/
import Verif.Props.Python
import Verif.Props.Observed
import Verif.Props.Spent

namespace GS.Props
open GS GS.Py GS.Builders GS.Witness
variable {n : Nat}

/-- C79: a failing `optimize` leaves the observer as it was. -/
theorem C79_failure (lower : Char → List Char) (env : Env n) (a : Args n) (e : PyErr)
    (h : (optimize lower env a).value = .error e) : (optimize lower env a).observer = a.observer := by
  unfold optimize at *
  split
  · rfl
  · rename_i o ho
    rw [ho] at h
    dsimp only at *
    split at h
    · rfl
    · cases h

theorem cloneInner_stage2 (b : PyObs n) : b.cloneInner.stage2 = b.inner.stage2 ∧ b.cloneInner.mode = b.inner.mode ∧
    b.cloneInner.stage2Started = b.inner.stage2Started := by
  unfold PyObs.cloneInner
  split <;> exact ⟨rfl, rfl, rfl⟩

/-- What `optimize` sets up is an optimizer built by the public methods. -/
theorem setup_built (lower : Char → List Char) (a : Args n) (o : Opt n) (h : setup lower a = .ok o) : Built o := by
  unfold setup at h
  split at h
  · cases h
  split at h
  · cases h
  rename_i o0 ho0
  split at h
  · cases h
  rename_i o1 ho1
  injection h with h
  subst h
  have h0 : Built o0 := .new (mapErr_ok ho0)
  have h1 : Built o1 := by
    unfold addPoints at ho1
    split at ho1
    · injection ho1 with ho1; exact ho1 ▸ h0
    · split at ho1
      · cases ho1
      · exact .points _ h0 (mapErr_ok ho1)
  have hopt : ∀ {α : Type} {o : Opt n} {f : Opt n → α → Opt n} (x : Option α), Built o →
      (∀ (o : Opt n) y, Built o → Built (f o y)) → Built (setOpt o f x) := by
    intro α o f x hb hf
    cases x with
    | none => exact hb
    | some y => exact hf o y hb
  have hflag : ∀ {o : Opt n} (x : Bool), Built o → Built (setFlag o x) := by
    intro o x hb
    cases x with
    | false => exact hb
    | true => exact .exclude _ hb
  unfold settings
  exact .tolerance _ _ (hflag _ (hopt _ (hopt _ (.parallel _ (hopt _ h1 fun _ _ h => .observer _ h))
    fun _ _ h => .target _ h) fun _ _ h => .maxTime _ h))

/-- C79 (partial): after a successful `optimize`, sequential or parallel, with an observer that tracks stage 2
and was not used before, the observer shows the number of local searches, evaluations and solutions of this
optimization and keeps its Python callback; if the target was reached, not more than these.
Missing: observers used before (`C79_reuse_violated`). -/
theorem C79_fresh_partial (lower : Char → List Char) (env : Env n) (a : Args n) (b : PyObs n) (l : List PySol)
    (ht : Tame env) (hb : a.observer = some b) (hm : b.inner.mode ≠ .stage1Only)
    (h2 : b.inner.stage2 = some Stage2.new) (hn : b.inner.stage2Started = false)
    (h : (optimize lower env a).value = .ok l) :
    ∃ o b' s, setup lower a = .ok o ∧ (optimize lower env a).observer = some b' ∧
      b'.pythonCallback = b.pythonCallback ∧ b'.inner.stage2 = some s ∧
      s.localCalls ≤ nSearch (run env o none).final.trace ∧
      s.functionEvaluations ≤
        evalsOf env o.params.solverType o.params.solverConfig (run env o none).final.trace ∧
      (a.parallel.getD false = false ∨ ¬ TargetMet o (run env o none).final.trace →
        s.localCalls = nSearch (run env o none).final.trace ∧
        s.functionEvaluations =
          evalsOf env o.params.solverType o.params.solverConfig (run env o none).final.trace) ∧
      (b'.inner.getStage2 = some s → s.solutionSetSize = l.length) := by
  unfold optimize at *
  cases ho : setup lower a with
  | error e => rw [ho] at h; cases h
  | ok o =>
    rw [ho] at h
    dsimp only at *
    cases hr : mapErr (run env o none).result with
    | error e => rw [hr] at h; cases h
    | ok set =>
      rw [hr] at h
      dsimp only at *
      injection h with h
      obtain ⟨p, _, hp, hty, hcf, _, _, _, _, hpar, _, _, _, _, _, hobs, _⟩ := C72_settings lower a o ho
      rw [hb] at hobs
      obtain ⟨k1, k2, k3⟩ := cloneInner_stage2 b
      have hw : Watches2 o b.cloneInner Stage2.new := ⟨hobs, by rw [k2]; exact hm, by rw [k1]; exact h2,
        by rw [k3]; exact hn⟩
      obtain ⟨u, s', c1, c2, c3⟩ := C55_every_mode ht (setup_built lower a o ho) hw (Or.inl rfl) (mapErr_ok hr)
      obtain ⟨_, _, _, ⟨_, _, u2, s2, d1, d2, _, _, d3⟩, hset⟩ := C55_processed ht hw (Or.inl rfl) (mapErr_ok hr)
      rw [c1] at d1
      cases d1
      rw [c2] at d2
      cases d2
      refine ⟨o, { b with inner := u }, s', rfl, ?_, rfl, c2, ?_, ?_, fun hex => ?_, ?_⟩
      · unfold writeBack
        rw [hb, c1]
        rfl
      · exact c3.calls_le.trans (Nat.zero_add _).le
      · exact c3.evals_le.trans (Nat.zero_add _).le
      · rcases hex with hp | hnt
        · obtain ⟨u', s3, e1, e2, e3, e4, _⟩ := C55_sequential ht hw (Or.inl rfl) (Or.inl (by rw [hpar, hp]))
            (mapErr_ok hr)
          rw [c1] at e1
          cases e1
          rw [c2] at e2
          cases e2
          refine ⟨e3.trans (Nat.zero_add _), e4.trans ?_⟩
          rw [hty, hcf, ‹o.params = p›]
          exact Nat.zero_add _
        · exact ⟨(c3.calls hnt).trans (Nat.zero_add _), (c3.evals hnt).trans (Nat.zero_add _)⟩
      · intro hg
        have hst : u.stage2Started = true := by
          cases hs : u.stage2Started with
          | true => rfl
          | false => unfold Obs.getStage2 at hg; rw [hs] at hg; cases hg
        rw [d3 hst _ hset, ← h, List.length_map]

/-- An observer that tracks stage 2. -/
def stage2Tracker : PyObs 1 := observerAfter [.stage2Tracking]

/-- The witness of C75 with an observer. -/
def observedArgs (b : Option (PyObs 1)) : Args 1 :=
  { tiltedArgs (F64.lit 1 (10 ^ 8)) (F64.lit 1 (10 ^ 6)) with observer := b }

/-- The first optimization. -/
def firstUse : Py.Result 1 := optimize demoLower (Witness.env tilted) (observedArgs (some stage2Tracker))

/-- The same optimization again with the same observer. -/
def secondUse : Py.Result 1 := optimize demoLower (Witness.env tilted) (observedArgs firstUse.observer)

/-- The local searches shown. -/
def shownCalls (r : Py.Result n) : Option Nat := (r.observer.bind fun b => b.inner.getStage2).map Stage2.localCalls

/-- C79 is violated when an observer is used again: the two optimizations return the same solutions, but the second
time the local searches of both are shown. -/
theorem C79_reuse_violated : returned firstUse = returned secondUse ∧ (returned firstUse).length = 3 ∧
    shownCalls firstUse = some 2 ∧ shownCalls secondUse = some 4 :=
  ⟨by decide +kernel, by decide +kernel, by decide +kernel, by decide +kernel⟩

example : stage2Tracker.inner.mode ≠ .stage1Only ∧ stage2Tracker.inner.stage2 = some Stage2.new ∧
    stage2Tracker.inner.stage2Started = false ∧ Tame (Witness.env tilted) ∧
    (optimize demoLower (Witness.env tilted) (observedArgs (some stage2Tracker))).value = .ok (returned firstUse) :=
  ⟨by decide, rfl, rfl, env_tame _, returned_ok (by decide +kernel)⟩

example : (optimize demoLower (Witness.env tilted) { observedArgs (some stage2Tracker) with points := some [[], [F64.one]] }).value =
    .error .valueError := by decide +kernel

end GS.Props
