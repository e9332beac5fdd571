/- C85: what callbacks are shown while a run goes on. -/
import Verif.Lemmas.ShownIter
import Verif.Props.Observed
import Verif.Props.Saves

namespace GS.Props
open GS F64 GS.Witness
variable {n : Nat}

/-- The solution set that a history leads to: a first solution and a new best one make up the set alone,
an added one is appended, all others leave it as it is. -/
def setBy (set : Option (List (Sol n))) : List (Event n) → Option (List (Sol n))
  | [] => set
  | .processed s .first :: t => setBy (some [s]) t
  | .processed s .newBest :: t => setBy (some [s]) t
  | .processed s .added :: t => setBy (some (set.getD [] ++ [s])) t
  | _ :: t => setBy set t

theorem setBy_eq (set : Option (List (Sol n))) (t : List (Event n)) : setBy set t = setAfter set t := by
  induction t generalizing set with
  | nil => rfl
  | cons e t ih =>
    cases e with
    | processed s v => cases v <;> exact ih _
    | _ => exact ih _

/-- What a callback is to be shown about iteration `i` of stage 2, when the history of the run is `past`, the part
of it since stage 2 began is `now`, the set before the run was `set`, and the observer's numbers before the run were
`s`: the iteration; the local solutions processed and those reported as added so far; the size of the solution set;
a best objective that the best solution of the set is not below, and which is a number if that solution's is; and the best solution is one that was the best of the
solution set at some time. -/
structure Current (set : Option (List (Sol n))) (s : Stage2 n) (past now : List (Event n)) (i : Nat)
    (shown : Stage2 n) : Prop where
  iteration : shown.iteration = i
  calls : shown.localCalls = s.localCalls + nProc now
  improved : shown.improvedCalls = s.improvedCalls + nRet now
  size : ∀ l, setBy set past = some l → shown.solutionSetSize = l.length
  best : ∀ l x, setBy set past = some l → bestSolution l = some x →
    F64.lt x.objective shown.bestObjective = false ∧
      (shown.bestObjective.isNaN = true → x.objective.isNaN = true)
  source : (shown.bestObjective = s.bestObjective ∧ shown.bestPoint = s.bestPoint) ∨
    ∃ a l x, a <+: past ∧ setBy set a = some l ∧ bestSolution l = some x ∧
      shown.bestObjective = x.objective ∧ shown.bestPoint = some x.point

/-- Callbacks of the part `t2` of the history after `t1` are shown the current numbers. -/
def ShownAll (set : Option (List (Sol n))) (s : Stage2 n) (t1 t2 : List (Event n)) : Prop :=
  ∀ a k seen w c, t2 = a ++ .callback k seen w :: c →
    ∃ i shown, k = 16 + i ∧ seen.seen2 = some shown ∧ Current set s (t1 ++ a) a i shown

theorem strip_best {a b : Option (Stage2 n)} (h : a.map Stage2.strip = b.map Stage2.strip) {s s' : Stage2 n}
    (ha : a = some s') (hb : b = some s) :
    s'.bestObjective = s.bestObjective ∧ s'.bestPoint = s.bestPoint := by
  subst ha hb
  have h : s'.strip = s.strip := Option.some.inj h
  exact ⟨(congrArg Stage2.bestObjective h : s'.strip.bestObjective = _),
    (congrArg Stage2.bestPoint h : s'.strip.bestPoint = _)⟩

/-- Entering stage 2. -/
theorem start2_told (env : Env n) (m : M n) (s : Stage2 n) (h : m.seen2 = some s) :
    ∃ s', (Act.obsStart2 env m).1.seen2 = some s' ∧ s'.localCalls = s.localCalls ∧
      s'.improvedCalls = s.improvedCalls ∧ Fits s' m.opt.solset ∧
      ((s'.bestObjective = s.bestObjective ∧ s'.bestPoint = s.bestPoint) ∨
        ∃ l x, m.opt.solset = some l ∧ bestSolution l = some x ∧ s'.bestObjective = x.objective ∧
          s'.bestPoint = some x.point) := by
  unfold M.seen2 at h ⊢
  unfold Act.obsStart2 Act.modify Opt.mapObs
  dsimp only
  cases ho : m.opt.obs with
  | none => rw [ho] at h; cases h
  | some b =>
    rw [ho] at h
    have h : b.seen2 = some s := h
    have hmark : ∀ x : Obs n, x.markStage2Started.seen2 = x.seen2 := fun _ => rfl
    simp only [Option.map_some, Option.bind_some, hmark, seen2_upd2, h]
    refine ⟨_, rfl, ?_⟩
    show (((s.start (env.time 10)).ofSet m.opt.solset).setThreshold _).localCalls = _ ∧ _
    exact ofSet_rest (s.start (env.time 10)) m.opt.solset

/-- Stage 2 from the state `m1` on. -/
theorem shown_main {env : Env n} (ht : Tame env) {set : Option (List (Sol n))} {s s1 : Stage2 n} {m1 : M n}
    {r : Bool} {st : Nat} {ref : List (Pt n)} {objs : Option (List F64)} (hs : m1.seen2 = some s1)
    (h0 : m1.opt.solset = setBy set m1.trace)
    (h1 : s1.localCalls = s.localCalls) (h2 : s1.improvedCalls = s.improvedCalls)
    (h3 : Fits s1 m1.opt.solset)
    (h4 : (s1.bestObjective = s.bestObjective ∧ s1.bestPoint = s.bestPoint) ∨
        ∃ l x, m1.opt.solset = some l ∧ bestSolution l = some x ∧ s1.bestObjective = x.objective ∧
          s1.bestPoint = some x.point)
    (hf : ∀ e, (Act.stage2Main env r st ref objs m1).2 ≠ .fail e) :
    ∃ t2, (Act.stage2Main env r st ref objs m1).1.trace = m1.trace ++ t2 ∧
      (Act.stage2Main env r st ref objs m1).1.opt.solset = setBy set (m1.trace ++ t2) ∧
      ShownAll set s m1.trace t2 := by
  obtain ⟨t2, g1, g2, g3⟩ := (cbsTrack ht).main r st ref objs m1 (fun _ => hf)
  obtain ⟨_, g3⟩ := g3 s1 hs
  have hI := (itsStep ht).main r st ref objs m1 (fun h => by cases h)
  obtain ⟨_, l, i1, i2⟩ := hI (by rw [hs]; rfl)
  rw [g1, cbs_append] at i1
  have i1 := List.append_cancel_left i1
  rw [h0, setBy_eq, ← setAfter_append, ← setBy_eq] at g2
  refine ⟨t2, g1, g2, fun a k seen w c he => ?_⟩
  obtain ⟨s2, j1, j2⟩ := g3 a k seen w c he
  obtain ⟨i, s3, e1, e2, e3⟩ := i2 (k, seen, w) (by
    rw [← i1, he, cbs_append]
    exact List.mem_append_right _ (by simp [cbs]))
  have e2 : seen.seen2 = some s3 := e2
  rw [j1] at e2
  cases e2
  have hfit := j2.fits h3
  rw [h0, setBy_eq, ← setAfter_append, ← setBy_eq] at hfit
  refine ⟨i, s2, e1, j1, e3, by rw [j2.calls, h1], by rw [j2.improved, h2], fun l hl => (hfit l hl).1,
    fun l x hl hx => (hfit l hl).2 x hx, ?_⟩
  rcases j2.best with ⟨b1, b2⟩ | ⟨a', l', x, hp, b1, b2, b3, b4⟩
  · rcases h4 with ⟨c1, c2⟩ | ⟨l', x, c1, c2, c3, c4⟩
    · exact Or.inl ⟨b1.trans c1, b2.trans c2⟩
    · exact Or.inr ⟨m1.trace, l', x, List.prefix_append _ _, h0 ▸ c1, c2, b1.trans c3, b2.trans c4⟩
  · refine Or.inr ⟨m1.trace ++ a', l', x, (List.prefix_append_right_inj _).2 hp, ?_, b2, b3, b4⟩
    rw [setBy_eq, setAfter_append, ← setBy_eq set, ← h0]; exact b1

/-- C85: in a run that starts with stage 1 and succeeds, watched by an observer told about stage 2, every callback
of stage 2 is shown the current numbers (`Current`), and the solution set of the optimizer is what the history
says.  The callbacks of stage 1, the part `t1` of the history, are stamped with numbers below 16, those of
iteration `i` of stage 2 with `16 + i`. -/
theorem C85_current {env : Env n} {o : Opt n} {loaded : Option (Except CkErr (Ckpt n))} {b : Obs n}
    {s : Stage2 n} {set : List (Sol n)} (ht : Tame env) (hw : Watches2 o b s) (hfr : Fresh o loaded)
    (hr : (run env o loaded).result = .ok set) :
    ∃ t1 t2, (run env o loaded).final.trace = t1 ++ t2 ∧ nProc t1 = 1 ∧
      (∀ k seen w, .callback k seen w ∈ t1 → k < 16) ∧
      some set = setBy o.solset (t1 ++ t2) ∧ ShownAll o.solset s t1 t2 := by
  rw [run_fresh env o loaded hfr] at hr ⊢
  obtain ⟨hset, hnf⟩ := finish_ok hr
  rw [finish_final]
  obtain ⟨b1, e1, e2, e3, e4, _⟩ := started_obs env o b hw.obs
  obtain ⟨r, m4, _, _, hF, hcase⟩ := body_fresh_tally ht ⟨started env o, 0, 0, []⟩ hnf
  obtain ⟨hcfg, ⟨t, htr, hz1, hz2, _, hz3, hz4⟩, hobs⟩ := hF
  obtain ⟨b4, f1, f2, f3, f4, _⟩ := hobs b1 e1
  obtain ⟨s4, g1, g2, g3, g4⟩ := strip_some f4 (e3.trans hw.stage2)
  have hb := strip_best f4 g1 (e3.trans hw.stage2)
  have htr : m4.trace = t := htr
  have hz3 : m4.opt.solset = setBy o.solset t := hz3.trans (setBy_eq _ _).symm
  have hst : ∀ k seen w, .callback k seen w ∈ t → k < 16 := fun k seen w hk => by
    have := hz4 _ hk
    exact of_decide_eq_true this
  rcases hcase with hcase | ⟨ref, objs, sd, hcase⟩
  · rw [hcase] at hset ⊢
    refine ⟨t, [], by rw [List.append_nil]; exact htr, hz2, hst, ?_, fun a k seen w c he => by simp at he⟩
    rw [List.append_nil, ← hz3]; exact hset.symm
  · rw [hcase] at hset hnf ⊢
    have hsm : M.seen2 { m4 with uc := 0 } = some s4 := by
      unfold M.seen2
      dsimp only
      rw [f1]
      exact seen2_of (by rw [f2, e2]; exact hw.mode) g1
    obtain ⟨s5, k1, k2, k3, k4, k5⟩ := start2_told env { m4 with uc := 0 } s4 hsm
    rw [hb.1, hb.2] at k5
    have hm5 : (enter2 env sd m4).trace = t := htr
    obtain ⟨t2, q1, q2, q3⟩ := shown_main ht (set := o.solset) (s := s) (m1 := enter2 env sd m4) (r := false)
      (st := 0) (ref := ref) (objs := objs) k1 (by rw [hm5]; exact hz3) (k2.trans g2) (k3.trans g3) k4 k5 hnf
    rw [hm5] at q1 q2 q3
    exact ⟨t, t2, q1, hz2, hst, by rw [← q2]; exact hset.symm, q3⟩

/-- C85 for a run that resumes from a checkpoint. -/
theorem C85_current_resumed {env : Env n} {o : Opt n} {loaded : Option (Except CkErr (Ckpt n))}
    {c : Ckpt n} {b : Obs n} {s : Stage2 n} {set : List (Sol n)} (ht : Tame env) (hw : Watches2 o b s)
    (hrs : Resumes o loaded c) (hr : (run env o loaded).result = .ok set) :
    some set = setBy c.solutionSet (run env o loaded).final.trace ∧
      ShownAll c.solutionSet s [] (run env o loaded).final.trace := by
  rw [run_resumes env o loaded hrs] at hr ⊢
  obtain ⟨hset, hnf⟩ := finish_ok hr
  rw [finish_final]
  obtain ⟨b1, e1, e2, e3, e4, _⟩ := started_obs env o b hw.obs
  unfold Act.body at hset hnf ⊢
  simp only [if_true] at hset hnf ⊢
  unfold Act.stage2 at hset hnf ⊢
  rw [Act.seq_def, show (Act.obsStart2 (n := n) env _).2 = .cont from rfl, if_pos rfl] at hset hnf ⊢
  simp only [if_true] at hset hnf ⊢
  obtain ⟨s5, k1, k2, k3, k4, k5⟩ := start2_told env
    { (⟨(started env o).restore c, 0, 0, []⟩ : M n) with uc := ((started env o).restore c).unchanged } s
    (by
      unfold M.seen2
      show (started env o).obs.bind Obs.seen2 = some s
      rw [e1]
      exact seen2_of (by rw [e2]; exact hw.mode) (e3.trans hw.stage2))
  obtain ⟨t2, q1, q2, q3⟩ := shown_main ht (set := c.solutionSet) (s := s) k1 rfl k2 k3 k4 k5 hnf
  rw [q1]
  exact ⟨by rw [← hset]; exact q2, q3⟩

/-- Non-vacuity: callbacks of stage 2 are called, some after local solutions were processed. -/
example : Tame (env slope) ∧ Watches2 watched watcher Stage2.new ∧ Fresh watched none ∧
    succeeds (run (env slope) watched none) = true ∧
    (cbs (run (env slope) watched none).final.trace).map Prod.fst = [1, 2, 3, 4, 6, 7, 16, 17, 18, 19] ∧
    nProc (run (env slope) watched none).final.trace = 3 :=
  ⟨env_tame _, watched_watches, Or.inl rfl, by decide +kernel, by decide +kernel, by decide +kernel⟩

/-- The same in parallel. -/
example : Watches2 (watched.setParallel true) watcher Stage2.new ∧
    succeeds (run (env slope) (watched.setParallel true) none) = true ∧
    (cbs (run (env slope) (watched.setParallel true) none).final.trace).map Prod.fst =
      [1, 2, 3, 4, 6, 7, 17, 16, 18, 19] :=
  ⟨⟨rfl, by decide, rfl, rfl⟩, by decide +kernel, by decide +kernel⟩

/-- Non-vacuity for resumed runs: every checkpoint of the interruptible run can be continued under observation, with
callbacks. -/
example : ∀ c ∈ savedIn (run (env stay1) stops none).final.trace,
    Resumes (stops.addObserver watcher) (some (.ok c)) c ∧
    succeeds (run (env stay1) (stops.addObserver watcher) (some (.ok c))) = true ∧
    c.solutionSet.isSome = true ∧
    (cbs (run (env stay1) (stops.addObserver watcher) (some (.ok c))).final.trace).length ≠ 0 :=
  fun c hc => ⟨⟨rfl, _, rfl, rfl⟩, by revert c; decide +kernel⟩

example : savedIn (run (env stay1) stops none).final.trace ≠ [] := by decide +kernel

/-! ### C86 -/

/-- Stage 2 from iteration `startIter` on works in batches of more than one point. -/
def Batches (env : Env n) (o : Opt n) (startIter : Nat) : Prop :=
  o.par = true ∧ ((∃ b, 1 < b ∧ o.batch = some b) ∨
    (o.batch = none ∧ 4 ≤ o.params.iterations - startIter ∧ env.threads ≠ 1))

theorem Batches.eff {env : Env n} {o : Opt n} {st : Nat} (h : Batches env o st) :
    1 < o.effBatch env.threads st := by
  obtain ⟨h1, h2⟩ := h
  unfold Opt.effBatch
  rw [h1]
  rcases h2 with ⟨b, hb, h2⟩ | ⟨h2, h3, h4⟩
  · rw [h2]; exact hb
  · rw [h2]
    dsimp only
    have : (decide (o.params.iterations - st < 4) || env.threads == 1) = false := by
      simp only [Bool.or_eq_false_iff, decide_eq_false_iff_not, beq_eq_false_iff_ne]
      omega
    rw [this]
    simp only [Bool.not_true, Bool.false_eq_true, if_false]
    exact Nat.lt_of_lt_of_le (by decide : 1 < 2) (Nat.le_max_left _ _)

/-- The callbacks among the events are shown the threshold and the number of unchanged cycles in force when they are
called. -/
def InForce (t : List (Event n)) : Prop := ∀ k seen w, .callback k seen w ∈ t →
  ∃ shown, seen.seen2 = some shown ∧ shown.threshold = w.1 ∧ shown.unchangedCycles = w.2

theorem inForce_main {env : Env n} (ht : Tame env) {m1 : M n} {r : Bool} {st : Nat} {ref : List (Pt n)}
    {objs : Option (List F64)} (hs : m1.seen2.isSome = true) (hb : 1 < m1.opt.effBatch env.threads st)
    (t2 : List (Event n)) (he : (Act.stage2Main env r st ref objs m1).1.trace = m1.trace ++ t2) : InForce t2 := by
  obtain ⟨_, l, h1, h2⟩ := (forceStep ht).main r st ref objs m1 hb (fun h => by cases h) hs
  rw [he, cbs_append] at h1
  have h1 := List.append_cancel_left h1
  intro k seen w hk
  refine h2 (k, seen, w) ?_
  rw [← h1]
  exact List.mem_filterMap.2 ⟨_, hk, rfl⟩

/-- C86 (partial): if stage 2 works in batches of more than one point, the callbacks of stage 2 of a run that starts
with stage 1 and succeeds are shown the threshold and the unchanged cycles in force when they are called.  The full
property asks for this without `Batches`; it fails one point at a time (`C86_violated`). -/
theorem C86_in_force_partial {env : Env n} {o : Opt n} {loaded : Option (Except CkErr (Ckpt n))} {b : Obs n}
    {s : Stage2 n} {set : List (Sol n)} (ht : Tame env) (hw : Watches2 o b s) (hfr : Fresh o loaded)
    (hb : Batches env o 0) (hr : (run env o loaded).result = .ok set) :
    ∃ t1 t2, (run env o loaded).final.trace = t1 ++ t2 ∧ nProc t1 = 1 ∧
      (∀ k seen w, .callback k seen w ∈ t1 → k < 16) ∧ InForce t2 := by
  rw [run_fresh env o loaded hfr] at hr ⊢
  obtain ⟨hset, hnf⟩ := finish_ok hr
  rw [finish_final]
  obtain ⟨b1, e1, e2, e3, e4, _⟩ := started_obs env o b hw.obs
  obtain ⟨r, m4, _, _, hF, hcase⟩ := body_fresh_tally ht ⟨started env o, 0, 0, []⟩ hnf
  obtain ⟨hcfg, ⟨t, htr, hz1, hz2, _, hz3, hz4⟩, hobs⟩ := hF
  obtain ⟨b4, f1, f2, f3, f4, _⟩ := hobs b1 e1
  obtain ⟨s4, g1, g2, g3, g4⟩ := strip_some f4 (e3.trans hw.stage2)
  have htr : m4.trace = t := htr
  have hst : ∀ k seen w, .callback k seen w ∈ t → k < 16 := fun k seen w hk => by
    have := hz4 _ hk
    exact of_decide_eq_true this
  rcases hcase with hcase | ⟨ref, objs, sd, hcase⟩
  · rw [hcase]
    exact ⟨t, [], by rw [List.append_nil]; exact htr, hz2, hst, fun k seen w hk => by simp at hk⟩
  · rw [hcase] at hset hnf ⊢
    have hsm : M.seen2 { m4 with uc := 0 } = some s4 := by
      unfold M.seen2
      dsimp only
      rw [f1]
      exact seen2_of (by rw [f2, e2]; exact hw.mode) g1
    obtain ⟨s5, k1, _⟩ := start2_told env { m4 with uc := 0 } s4 hsm
    have hm5 : (enter2 env sd m4).trace = t := htr
    have hcfg5 : SameCfg (started env o) (enter2 env sd m4).opt := by
      refine hcfg.trans (SameCfg.trans (start2_cfg env { m4 with uc := 0 }).1 ?_)
      constructor <;> rfl
    obtain ⟨t2, q1, _⟩ := (cbsTrack ht).main false 0 ref objs (enter2 env sd m4) (fun _ => hnf)
    have k1 : (enter2 env sd m4).seen2 = some s5 := k1
    have hI := inForce_main ht (m1 := enter2 env sd m4) (by rw [k1]; rfl)
      (by rw [effBatch_cfg hcfg5]; exact hb.eff) t2 q1
    rw [hm5] at q1
    exact ⟨t, t2, q1, hz2, hst, hI⟩

/-- C86 (partial) for a run that resumes from a checkpoint. -/
theorem C86_in_force_resumed_partial {env : Env n} {o : Opt n} {loaded : Option (Except CkErr (Ckpt n))}
    {c : Ckpt n} {b : Obs n} {s : Stage2 n} (ht : Tame env) (hw : Watches2 o b s)
    (hrs : Resumes o loaded c) (hb : Batches env (o.restore c) c.currentIteration) :
    InForce (run env o loaded).final.trace := by
  rw [run_resumes env o loaded hrs, finish_final]
  obtain ⟨b1, e1, e2, e3, e4, _⟩ := started_obs env o b hw.obs
  unfold Act.body
  simp only [if_true]
  unfold Act.stage2
  rw [Act.seq_def, show (Act.obsStart2 (n := n) env _).2 = .cont from rfl, if_pos rfl]
  simp only [if_true]
  obtain ⟨s5, k1, _⟩ := start2_told env
    { (⟨(started env o).restore c, 0, 0, []⟩ : M n) with uc := ((started env o).restore c).unchanged } s
    (by
      unfold M.seen2
      show (started env o).obs.bind Obs.seen2 = some s
      rw [e1]
      exact seen2_of (by rw [e2]; exact hw.mode) (e3.trans hw.stage2))
  exact inForce_main ht (by rw [k1]; rfl) hb.eff _ rfl

/-- Non-vacuity: the parallel run of the observed optimizer works in batches, and its callbacks are called with
different numbers of unchanged cycles. -/
example : Batches (env slope) (watched.setParallel true) 0 ∧
    (cbs (run (env slope) (watched.setParallel true) none).final.trace).map (fun x => (x.1, x.2.2.2)) =
      [(1, 0), (2, 0), (3, 0), (4, 0), (6, 0), (7, 0), (17, 1), (16, 1), (18, 0), (19, 0)] :=
  ⟨⟨rfl, Or.inr ⟨by decide +kernel, by decide +kernel, by decide +kernel⟩⟩, by decide +kernel⟩

/-- The interruptible run in batches of two points, observed. -/
def stopsBatch : Opt 1 := ((stops.setParallel true).setBatch 2).addObserver watcher

/-- Non-vacuity for resumed runs. -/
example : Watches2 stopsBatch watcher Stage2.new ∧
    savedIn (run (env stay1) stopsBatch none).final.trace ≠ [] ∧
    ∀ c ∈ savedIn (run (env stay1) stopsBatch none).final.trace,
      Resumes stopsBatch (some (.ok c)) c ∧ Batches (env stay1) (stopsBatch.restore c) c.currentIteration ∧
      (cbs (run (env stay1) stopsBatch (some (.ok c))).final.trace).length ≠ 0 :=
  ⟨⟨rfl, by decide, rfl, rfl⟩, by decide +kernel, fun c hc =>
    ⟨⟨rfl, _, rfl, rfl⟩, ⟨by revert c; decide +kernel, Or.inl ⟨2, by decide, by revert c; decide +kernel⟩⟩, by
      revert c; decide +kernel⟩⟩

/-- Thresholds shown by the callbacks of stage 2, and thresholds in force. -/
def thresholds (r : RunResult 1) : List (Option F64 × F64) :=
  ((cbs r.final.trace).filter fun x => decide (16 ≤ x.1)).map fun x => (x.2.1.seen2.map Stage2.threshold, x.2.2.1)

/-- C86 fails when stage 2 goes one point at a time: here the callback of the first iteration is shown the threshold 5
from before the iteration, while the threshold in force, set by the iteration, is 2. -/
theorem C86_violated : Built watched ∧ Tame (env slope) ∧ Watches2 watched watcher Stage2.new ∧
    succeeds (run (env slope) watched none) = true ∧
    (thresholds (run (env slope) watched none)).head? = some (some (num 5), num 2) :=
  ⟨Built.observer _ (Built.parallel _ (mk_built flat_ok)), env_tame _, watched_watches, by decide +kernel,
    by decide +kernel⟩

end GS.Props
