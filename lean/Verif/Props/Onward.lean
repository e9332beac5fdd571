/- C47, C96, C97 for resumed runs of every mode and batch size. -/
import Verif.Props.EveryMode

namespace GS.Props
open GS F64 GS.Witness
variable {n : Nat}

theorem items_snd (iters st : Nat) (ref : List (Pt n)) :
    (Act.items iters st ref).map Prod.snd = (ref.take iters).drop st := by
  apply List.ext_getElem?
  intro j
  rw [List.getElem?_map, items_get, List.getElem?_drop, Option.map_map]
  cases (ref.take iters)[st + j]? <;> rfl

/-- Part of C47, in every mode: a resumed run examines, in order and numbered from the stored index on,
points of the stored reference set from that index on, none twice.  Missing from C47: the stored
reference set is not in the shuffled order of the interrupted run, see `C47_violated`. -/
theorem C47_in_order_partial {env : Env n} {o : Opt n} {loaded : Option (Except CkErr (Ckpt n))} {c : Ckpt n}
    (hr : Resumes o loaded c) (hne : c.solutionSet ≠ some []) (ht : (o.restore c).targetReached = false) :
    ∃ k, (examined (run env o loaded).final.trace).map Prod.snd =
        ((c.referenceSet.take c.params.iterations).drop c.currentIteration).take k ∧
      (examined (run env o loaded).final.trace).map Prod.fst =
        ((List.range (min c.params.iterations c.referenceSet.length)).drop c.currentIteration).take k := by
  have hp := resumed_post' (o := (started env o).restore c) env hne ht
  rw [run_resumes env o loaded hr, finish_final]
  obtain ⟨k, hk⟩ := hp.pref
  refine ⟨k, ?_, ?_⟩
  · rw [hk, examined, List.filterMap_nil, List.nil_append, List.map_take]
    exact congrArg (List.take k) (items_snd _ _ _)
  · rw [hk, examined, List.filterMap_nil, List.nil_append, List.map_take]
    exact congrArg (List.take k) (items_iters _ _ _)

/-- Part of C47, in every mode: a successful resumed run that does not reach the target examines all these
points, or, when the `j`-th test of the time limit is the first to find it exceeded, those of the first `j`
batches. -/
theorem C47_every_mode_partial {env : Env n} {o : Opt n} {loaded : Option (Except CkErr (Ckpt n))}
    {c : Ckpt n} {set : List (Sol n)} (hr : Resumes o loaded c) (hne : c.solutionSet ≠ some [])
    (ht : (o.restore c).targetReached = false) (hok : (run env o loaded).result = .ok set)
    (htarget : ¬ TargetMet (o.restore c) (run env o loaded).final.trace) :
    ((examined (run env o loaded).final.trace).map Prod.snd =
        (c.referenceSet.take c.params.iterations).drop c.currentIteration ∧
      (examined (run env o loaded).final.trace).map Prod.fst =
        (List.range (min c.params.iterations c.referenceSet.length)).drop c.currentIteration) ∨
    ∃ t j, o.maxTime = some t ∧ F64.gt (env.clock j) t = true ∧
      (∀ i, i < j → F64.gt (env.clock i) t = false) ∧
      (examined (run env o loaded).final.trace).map Prod.snd =
        ((c.referenceSet.take c.params.iterations).drop c.currentIteration).take
          (j * batchSize env (o.restore c) c.currentIteration) := by
  have hp := resumed_post' (o := (started env o).restore c) env hne ht
  have h1 := run_resumes env o loaded hr
  rw [h1] at hok
  obtain ⟨_, hnf⟩ := finish_ok hok
  rw [h1, finish_final] at htarget ⊢
  have hnt : (Act.body env true ⟨(started env o).restore c, 0, 0, []⟩).1.opt.targetReached = false := by
    cases hc : (Act.body env true ⟨(started env o).restore c, 0, 0, []⟩).1.opt.targetReached
    · rfl
    · exact absurd ((targetReached_iff (hp.good.hist hne)).1 hc) htarget
  have hcc : (Act.body env true ⟨(started env o).restore c, 0, 0, []⟩).2 = .cont := by
    cases ho : (Act.body env true ⟨(started env o).restore c, 0, 0, []⟩).2 with
    | cont => rfl
    | stop => exact absurd ho hp.nostop
    | fail e => exact absurd ho (hnf e)
  rcases hp.cont hcc with ⟨h, _⟩ | ⟨_, _, ⟨j, ⟨hl, hb⟩, hj⟩ | ⟨h, _⟩⟩
  · rw [hnt] at h; cases h
  · right
    unfold Act.timedOut at hl hb
    rw [show ((started env o).restore c).maxTime = o.maxTime from rfl] at hl hb
    cases hm : o.maxTime with
    | none => rw [hm] at hl; cases hl
    | some t =>
      rw [hm] at hl hb
      simp only [Nat.zero_add] at hl hb
      refine ⟨t, j, rfl, hl, hb, ?_⟩
      rw [hj, examined, List.filterMap_nil, List.nil_append, List.map_take]
      exact congrArg (List.take _) (items_snd _ _ _)
  · left
    rw [h, examined, List.filterMap_nil, List.nil_append]
    exact ⟨items_snd _ _ _, items_iters _ _ _⟩

/-- C96, resumed runs: when a successful run did not reach the target, every point that passed was searched
and every solution found was recorded; and C97: the threshold at the end is the one in force, and fewer than
`wait_cycle` rejections are pending, if that held for the checkpoint. -/
theorem C96_complete_resumed {env : Env n} {o : Opt n} {loaded : Option (Except CkErr (Ckpt n))} {c : Ckpt n}
    {set : List (Sol n)} (hr : Resumes o loaded c) (hne : c.solutionSet ≠ some [])
    (ht : (o.restore c).targetReached = false) (hok : (run env o loaded).result = .ok set)
    (htarget : ¬ TargetMet (o.restore c) (run env o loaded).final.trace) :
    searched (run env o loaded).final.trace = passed (run env o loaded).final.trace ∧
    foundSols (run env o loaded).final.trace = procs (run env o loaded).final.trace ∧
    (run env o loaded).final.opt.merit.threshold =
      inForce c.meritThreshold (run env o loaded).final.trace ∧
    (c.unchangedCycles < max 1 c.params.waitCycle →
      rejections c.unchangedCycles (run env o loaded).final.trace (fun _ => true) <
        max 1 c.params.waitCycle) := by
  have hp := resumed_post' (o := (started env o).restore c) env hne ht
  have h1 := run_resumes env o loaded hr
  rw [h1] at hok
  obtain ⟨_, hnf⟩ := finish_ok hok
  rw [h1, finish_final] at htarget ⊢
  have hnt : (Act.body env true ⟨(started env o).restore c, 0, 0, []⟩).1.opt.targetReached = false := by
    cases hc : (Act.body env true ⟨(started env o).restore c, 0, 0, []⟩).1.opt.targetReached
    · rfl
    · exact absurd ((targetReached_iff (hp.good.hist hne)).1 hc) htarget
  have hcc : (Act.body env true ⟨(started env o).restore c, 0, 0, []⟩).2 = .cont := by
    cases ho : (Act.body env true ⟨(started env o).restore c, 0, 0, []⟩).2 with
    | cont => rfl
    | stop => exact absurd ho hp.nostop
    | fail e => exact absurd ho (hnf e)
  rcases hp.cont hcc with ⟨h, _⟩ | ⟨hi, _, _⟩
  · rw [hnt] at h; cases h
  · have a := hi.srch
    have b := hi.fnd
    rw [List.append_nil] at a b
    refine ⟨a, b, hi.inForce.symm, fun hw => ?_⟩
    obtain ⟨D, d1, d2, -⟩ := hi.wait
    rw [List.append_nil] at d1
    have := hi.lim hw
    show rejections ((started env o).restore c).unchanged _ _ < _
    unfold rejections
    rw [List.filter_eq_self.2 (fun _ _ => rfl), d1, ← d2]
    exact this

/-- The hypotheses of these theorems hold for every checkpoint that a parallel run writes, and for every
checkpoint of a sequential run; the resumed runs succeed, and no target is set. -/
example : (savedIn (run wideEnv wideSaving none).final.trace ≠ [] ∧
      ∀ c ∈ savedIn (run wideEnv wideSaving none).final.trace, Resumes wideSaving (some (.ok c)) c ∧
        ((c.solutionSet.getD []).isEmpty = false ∧ (wideSaving.restore c).targetReached = false ∧
          succeeds (run wideEnv wideSaving (some (.ok c))) = true ∧ (wideSaving.restore c).target = none)) ∧
    (savedIn (run (env stay1) stops none).final.trace ≠ [] ∧
      ∀ c ∈ savedIn (run (env stay1) stops none).final.trace, Resumes stops (some (.ok c)) c ∧
        ((c.solutionSet.getD []).isEmpty = false ∧ (stops.restore c).targetReached = false ∧
          succeeds (run (env stay1) stops (some (.ok c))) = true ∧ (stops.restore c).target = none)) :=
  ⟨⟨by decide +kernel, fun c hc => ⟨⟨rfl, _, rfl, rfl⟩, by revert c; decide +kernel⟩⟩,
    ⟨by decide +kernel, fun c hc => ⟨⟨rfl, _, rfl, rfl⟩, by revert c; decide +kernel⟩⟩⟩

end GS.Props
