/- Property C88: what the time limit does.  `env.clock k` is the time in seconds since the start of stage 2
that the program reads before its `k`-th batch. -/
import Verif.Lemmas.AllLoop
import Verif.Lemmas.Clock
import Verif.Props.Batch
import Verif.Props.Stage2

namespace GS.Props
open GS F64 Witness
variable {n : Nat}

/-! ### C88: the time limit -/

/-- Changing only the time limit. -/
def limitTo (t : F64) : Er := { noObs := false, batch := id, time := fun _ => some t }

theorem limitTo_event (t : F64) : (limitTo t).event (n := n) = fun e => some e := by
  funext e
  cases e <;> try rfl
  rename_i it p r
  cases r <;> rfl

theorem limitTo_res {α : Type} (t : F64) (r : Except Err α) : (limitTo t).res r = r := by
  cases r with
  | ok _ => rfl
  | error e => cases e <;> rfl

theorem startOpt_maxTime {env : Env n} {o o1 : Opt n} {r : Bool}
    {loaded : Option (Except CkErr (Ckpt n))} (h : startOpt env o loaded = .ok (o1, r)) :
    o1.maxTime = o.maxTime := by
  unfold startOpt Opt.tryResume at h
  (repeat' split at h) <;> cases h <;> rfl

/-- A time limit that the clock never exceeds changes nothing: same result, same events, same final state
apart from the recorded limit. -/
theorem C88_unreached {env : Env n} {o : Opt n} (t : F64) {loaded : Option (Except CkErr (Ckpt n))}
    (ho : o.maxTime = none) (hc : ∀ k, F64.gt (env.clock k) t = false) :
    (run env (o.setMaxTime t) loaded).result = (run env o loaded).result ∧
    (run env (o.setMaxTime t) loaded).final.trace = (run env o loaded).final.trace ∧
    (run env (o.setMaxTime t) loaded).final.opt = (run env o loaded).final.opt.setMaxTime t := by
  have h := run_sim (E := limitTo t) (env := env) (env' := env) (o := o) (loaded := loaded) ?_
    (fun _ => rfl) (fun h => by cases h)
  · rw [loaded_id loaded rfl, show (limitTo t).opt o = o.setMaxTime t from rfl] at h
    rw [h]
    refine ⟨limitTo_res t _, ?_, rfl⟩
    show List.filterMap (limitTo t).event _ = _
    rw [limitTo_event]
    simp
  · intro o1 r h1
    have hm : o1.maxTime = none := (startOpt_maxTime h1).trans ho
    refine ⟨rfl, rfl, ?_, ?_, rfl, rfl, fun _ => ⟨rfl, rfl⟩, ⟨fun _ _ => rfl, rfl⟩, fun _ => rfl,
      (fun h => by cases h), Or.inl fun _ => ⟨rfl, rfl⟩⟩
    · intro ty cfg p
      cases env.solve ty cfg p <;> rfl
    · intro k
      unfold Act.timedOut
      rw [hm]
      exact hc k

/-- A limit that is not a number never stops a run. -/
theorem C88_nan_ignored {env : Env n} {o : Opt n} {t : F64} {loaded : Option (Except CkErr (Ckpt n))}
    (ho : o.maxTime = none) (ht : t.isNaN = true) :
    (run env (o.setMaxTime t) loaded).result = (run env o loaded).result ∧
    (run env (o.setMaxTime t) loaded).final.trace = (run env o loaded).final.trace := by
  have h := C88_unreached (env := env) (loaded := loaded) t ho (fun k => by
    unfold F64.gt F64.lt
    rw [ht]; simp)
  exact ⟨h.1, h.2.1⟩

/-- The largest number of candidates a run works on between two looks at the clock. -/
def batchLimit (o : Opt n) : Nat := if o.par then o.batch.getD 8 else 1

theorem effBatch_le (o : Opt n) (threads st : Nat) : o.effBatch threads st ≤ batchLimit o := by
  unfold Opt.effBatch batchLimit
  cases o.par with
  | false => simp
  | true =>
    simp only [Bool.not_true, Bool.false_eq_true, if_false, if_true]
    cases o.batch with
    | some b => exact Nat.le_refl _
    | none =>
      dsimp only [Option.getD_none]
      split
      · omega
      · exact Nat.max_le.2 ⟨by omega, Nat.min_le_left _ _⟩

/-- Once the clock exceeds the limit before the `K`-th batch, only the earlier batches are worked on: stage 2
starts at most `K` batches' worth of local searches, and a resumed run evaluates at most that many points.  A
resumed run follows the limit of the resuming optimizer. -/
theorem C88_stops {env : Env n} {o : Opt n} {t : F64} {K : Nat}
    {loaded : Option (Except CkErr (Ckpt n))} (ht : o.maxTime = some t)
    (hlate : F64.gt (env.clock K) t = true) :
    (Fresh o loaded → (searched (run env o loaded).final.trace).length ≤ K * batchLimit o ∧
      evaluated (run env o loaded).final.trace = []) ∧
    (∀ c, Resumes o loaded c →
      (searched (run env o loaded).final.trace).length ≤ K * batchLimit (o.restore c) ∧
      (evaluated (run env o loaded).final.trace).length ≤ K * batchLimit (o.restore c)) := by
  have hl : ∀ (x : Opt n), x.maxTime = o.maxTime → Act.timedOut env x K = true := by
    intro x hx
    unfold Act.timedOut
    rw [hx, ht]
    exact hlate
  refine ⟨fun hf => ?_, fun c hr => ?_⟩
  · rw [run_fresh env o loaded hf, finish_final]
    refine ⟨?_, ?_⟩
    · obtain ⟨t', h1, st, h2, _⟩ := late_body (env := env) false K ⟨started env o, 0, 0, []⟩ (hl _ rfl)
      rw [h1, List.nil_append]
      exact h2.trans (Nat.mul_le_mul_left _ (effBatch_le o env.threads st))
    · obtain ⟨t', h1, _, _, h2⟩ := bound_body_fresh env ⟨started env o, 0, 0, []⟩
      rw [h1, List.nil_append]
      exact List.length_eq_zero_iff.1 h2
  · rw [run_resumes env o loaded hr, finish_final]
    obtain ⟨t', h1, st, h2, h3⟩ := late_body (env := env) true K
      ⟨(started env o).restore c, 0, 0, []⟩ (hl _ rfl)
    rw [h1, List.nil_append]
    exact ⟨h2.trans (Nat.mul_le_mul_left _ (effBatch_le (o.restore c) env.threads st)),
      h3.trans (Nat.mul_le_mul_left _ (effBatch_le (o.restore c) env.threads st))⟩

/-- An event of writing a checkpoint. -/
def isSave : Event n → Bool
  | .saved .. | .saveFailed .. => true
  | _ => false

theorem saveFinal_trace (env : Env n) (m : M n) :
    ∃ t, ((Act.obsEnd2 env ;; Act.saveFinal env) m).1.trace = m.trace ++ t ∧ t.length ≤ 1 ∧
      ∀ e ∈ t, isSave e = true := by
  rw [Act.seq_def, show (Act.obsEnd2 env m).2 = .cont from rfl, if_pos rfl]
  have hm : (Act.obsEnd2 env m).1.trace = m.trace := rfl
  unfold Act.saveFinal
  split
  · exact ⟨[], by simp [hm], by simp, by simp⟩
  · unfold Act.writeCkpt
    dsimp only
    split
    · exact ⟨[_], rfl, by simp, by simp [isSave]⟩
    · exact ⟨[_], rfl, by simp, by simp [isSave]⟩

/-- What may come out of a run that the time limit has stopped. -/
def StoppedResult (r : Except Err (List (Sol n))) : Prop :=
  (∃ set, r = .ok set) ∨ (∃ e, r = .error (.checkpoint e)) ∨ r = .error (.noFeasibleSolution 0)

theorem saveFinal_result (env : Env n) (m : M n) :
    StoppedResult (finish ((Act.obsEnd2 env ;; Act.saveFinal env) m)).result := by
  rw [Act.seq_def, show (Act.obsEnd2 env m).2 = .cont from rfl, if_pos rfl]
  cases ho : Act.saveFinal env (Act.obsEnd2 env m).1 with
  | mk m' out =>
    cases out with
    | fail e =>
      obtain ⟨c, rfl⟩ := saveFinal_fail env _ e (by rw [ho])
      exact Or.inr (Or.inl ⟨c, rfl⟩)
    | cont =>
      unfold finish StoppedResult
      dsimp only
      cases m'.opt.solset <;> simp
    | stop =>
      unfold finish StoppedResult
      dsimp only
      cases m'.opt.solset <;> simp

theorem body_cut {env : Env n} (c : Nat → F64) (r : Bool) (m : M n)
    (hn : ∀ k, Act.timedOut (env.withClock c) m.opt k = false) :
    Act.body env r m = Act.body (env.withClock c) r m ∨
    ∃ m1, Act.body env r m = (Act.obsEnd2 env ;; Act.saveFinal env) m1 ∧
      ∃ t, (Act.body (env.withClock c) r m).1.trace = m1.trace ++ t := by
  rcases Enters.body env r m with ⟨m', out, h1, _⟩ | ⟨m1, st, ref, objs, h1, h2, _⟩
  · exact Or.inl ((h1 env.clock).trans (h1 c).symm)
  · have := cut_stage2Main (env := env) (c := c) r st ref objs m1
      (fun k => by rw [timedOut_cfg h2.cfg]; exact hn k)
    rw [show Act.body (env.withClock c) r m = _ from h1 c,
      show Act.body env r m = Act.stage2Main env r st ref objs m1 from h1 env.clock]
    exact this

/-- The time limit only cuts a run short.  Up to the cut the limited run does exactly what the unlimited run
does; after it, it writes at most one checkpoint, and it then returns the solutions found so far (or the error
of that write, or that there is no solution at all). -/
theorem C88_cuts {env : Env n} {o : Opt n} (t : F64) {loaded : Option (Except CkErr (Ckpt n))}
    (ho : o.maxTime = none) :
    ((run env (o.setMaxTime t) loaded).result = (run env o loaded).result ∧
      (run env (o.setMaxTime t) loaded).final.trace = (run env o loaded).final.trace) ∨
    ∃ pre post rest, (run env (o.setMaxTime t) loaded).final.trace = pre ++ post ∧
      (run env o loaded).final.trace = pre ++ rest ∧ post.length ≤ 1 ∧ (∀ e ∈ post, isSave e = true) ∧
      StoppedResult (run env (o.setMaxTime t) loaded).result := by
  -- the unlimited run is the limited run on a clock that stands still
  have hgt : F64.gt t t = false := by
    unfold F64.gt F64.lt
    simp
  obtain ⟨e1, e2, _⟩ := C88_unreached (env := env.withClock fun _ => t) (o := o) t (loaded := loaded) ho
    (fun _ => hgt)
  have hsame : run (env.withClock fun _ => t) o loaded = run env o loaded := by
    let E : Er := { noObs := false, batch := id }
    have h := run_sim (E := E) (env := env) (env' := env.withClock fun _ => t) (o := o) (loaded := loaded)
      ?_ (fun _ => rfl) (fun h => by cases h)
    · rw [loaded_id loaded rfl, show E.opt o = o from rfl, Er.st_id rfl rfl rfl rfl] at h
      rw [h]
      generalize run env o loaded = x
      obtain ⟨f, res⟩ := x
      cases res with
      | ok s => rfl
      | error e => cases e <;> rfl
    · intro o1 r h1
      have hm : o1.maxTime = none := (startOpt_maxTime h1).trans ho
      refine ⟨rfl, rfl, ?_, ?_, rfl, rfl, fun _ => ⟨rfl, rfl⟩, ⟨fun _ _ => rfl, rfl⟩, fun _ => rfl,
        (fun h => by cases h), Or.inl fun _ => ⟨rfl, rfl⟩⟩
      · intro ty cfg p
        show env.solve ty cfg p = _
        cases env.solve ty cfg p <;> rfl
      · intro k
        unfold Act.timedOut
        rw [show (E.opt o1).maxTime = o1.maxTime from rfl, hm]
  rw [hsame] at e1 e2
  have hn : ∀ (x : Opt n), x.maxTime = some t →
      ∀ k, Act.timedOut (env.withClock fun _ => t) x k = false := by
    intro x hx k
    unfold Act.timedOut
    rw [hx]
    exact hgt
  have key : ∀ (r : Bool) (m : M n), m.opt.maxTime = some t →
      (∀ c, run (env.withClock c) (o.setMaxTime t) loaded = finish (Act.body (env.withClock c) r m)) →
      ((run env (o.setMaxTime t) loaded).result = (run env o loaded).result ∧
      (run env (o.setMaxTime t) loaded).final.trace = (run env o loaded).final.trace) ∨
    ∃ pre post rest, (run env (o.setMaxTime t) loaded).final.trace = pre ++ post ∧
      (run env o loaded).final.trace = pre ++ rest ∧ post.length ≤ 1 ∧ (∀ e ∈ post, isSave e = true) ∧
      StoppedResult (run env (o.setMaxTime t) loaded).result := by
    intro r m hm hrun
    rw [← e1, ← e2]
    have h0 : run env (o.setMaxTime t) loaded = finish (Act.body env r m) := hrun env.clock
    rw [h0, hrun fun _ => t]
    rcases body_cut (env := env) (fun _ => t) r m (hn _ hm) with h | ⟨m1, h, rest, hrest⟩
    · exact Or.inl (by rw [h]; exact ⟨rfl, rfl⟩)
    · right
      obtain ⟨post, h3, h4, h5⟩ := saveFinal_trace env m1
      refine ⟨m1.trace, post, rest, ?_, ?_, h4, h5, ?_⟩
      · rw [h, finish_final, h3]
      · rw [finish_final, hrest]
      · rw [h]; exact saveFinal_result env m1
  cases hs : startOpt env (o.setMaxTime t) loaded with
  | error e =>
    have h1 : ∀ c, run (env.withClock c) (o.setMaxTime t) loaded =
        ⟨(Act.obsStart env ⟨o.setMaxTime t, 0, 0, []⟩).1, .error e⟩ := by
      intro c
      unfold startOpt at hs
      unfold run
      dsimp only
      rw [show (Act.obsStart (env.withClock c) ⟨o.setMaxTime t, 0, 0, []⟩) =
        Act.obsStart env ⟨o.setMaxTime t, 0, 0, []⟩ from rfl, hs]
    left
    rw [← e1, ← e2, h1, show run env (o.setMaxTime t) loaded = _ from h1 env.clock]
    exact ⟨rfl, rfl⟩
  | ok x =>
    obtain ⟨o1, r⟩ := x
    refine key r ⟨o1, 0, 0, []⟩ ?_ ?_
    · exact startOpt_maxTime hs
    · intro c
      unfold startOpt at hs
      unfold run
      dsimp only
      rw [show (Act.obsStart (env.withClock c) ⟨o.setMaxTime t, 0, 0, []⟩) =
        Act.obsStart env ⟨o.setMaxTime t, 0, 0, []⟩ from rfl, hs]
      rfl

/-- The cut is exact: if the clock first exceeds the limit before the `K`-th batch, a fresh run (sequential or
parallel) that neither fails nor reaches its target examines exactly the points of the first `K` batches, in
sequential mode the first `K` points. -/
theorem C88_exact {env : Env n} {o : Opt n} {loaded : Option (Except CkErr (Ckpt n))} {t : F64} {K : Nat}
    (hb : Built o) (hf : Fresh o loaded) {set : List (Sol n)}
    (hok : (run env o loaded).result = .ok set) (ht : o.maxTime = some t)
    (hlate : F64.gt (env.clock K) t = true) (hearly : ∀ k, k < K → F64.gt (env.clock k) t = false)
    (htarget : ¬ TargetMet o (run env o loaded).final.trace) :
    ∃ sc sd, Act.scatter env o = .ok sc ∧
      Opt.shuffleSeed env o.params.seed 0 = some sd ∧
      (examined (run env o loaded).final.trace).map Prod.snd =
        (planned env o sc sd).take (K * o.effBatch env.threads 0) := by
  have h1 := run_fresh env o loaded hf
  have h2 : (run env o loaded).final.trace = (Act.body env false ⟨started env o, 0, 0, []⟩).1.trace := by
    rw [h1, finish_final]
  have hne : (started env o).solset ≠ some [] := by
    show o.solset ≠ some []
    rw [hb.unused.solset]; simp
  have h3 := fresh_post' (o := started env o) env hne
  rw [h1] at hok
  obtain ⟨hset, hnf⟩ := finish_ok hok
  rw [h2] at htarget ⊢
  have hnt : (Act.body env false ⟨started env o, 0, 0, []⟩).1.opt.targetReached = false := by
    cases hc : (Act.body env false ⟨started env o, 0, 0, []⟩).1.opt.targetReached
    · rfl
    · obtain ⟨_, _, _, _, hi, _⟩ := h3.inv hnf
      exact absurd ((targetReached_iff (hi.hist hne)).1 hc) htarget
  have hto : ∀ k, Act.timedOut env (started env o) (0 + k) = F64.gt (env.clock k) t := by
    intro k
    unfold Act.timedOut
    rw [show (started env o).maxTime = o.maxTime from rfl, ht, Nat.zero_add]
  generalize Act.body env false ⟨started env o, 0, 0, []⟩ = r at *
  rcases h3.shape with ⟨_, hnc, hst⟩ | ⟨sc, sd, hsc, hsd, hns, _, hcont⟩
  · exfalso
    cases ho : r.2 with
    | cont => exact hnc ho
    | stop => rw [hst ho] at hnt; cases hnt
    | fail e => exact hnf e ho
  · have hc : (started env o).curIter = 0 := hb.unused.curIter
    rw [hc] at hsd
    refine ⟨sc, sd, hsc, hsd, ?_⟩
    have hcc : r.2 = .cont := by
      cases ho : r.2 with
      | cont => rfl
      | stop => exact absurd ho hns
      | fail e => exact absurd ho (hnf e)
    have he : (started env o).effBatch env.threads 0 = o.effBatch env.threads 0 := rfl
    rw [he] at hcont
    rcases hcont hcc with h | ⟨j, ⟨hj, hmin⟩, h⟩ | ⟨h, hnl⟩
    · rw [hnt] at h; cases h
    · have : j = K := by
        rcases Nat.lt_trichotomy j K with hlt | heq | hgt
        · rw [hto, hearly j hlt] at hj; cases hj
        · exact heq
        · have := hmin K hgt
          rw [hto, hlate] at this; cases this
      rw [h, this, List.map_take, items_points]; rfl
    · have hlen : (Act.items (started env o).params.iterations 0
          (env.rt.shuffle sd (sc.ref.map Prod.fst))).length ≤ K * o.effBatch env.threads 0 := by
        rcases Nat.lt_or_ge (K * o.effBatch env.threads 0) (Act.items (started env o).params.iterations 0
          (env.rt.shuffle sd (sc.ref.map Prod.fst))).length with hlt | hge
        · have := hnl K hlt
          rw [hto, hlate] at this; cases this
        · exact hge
      rw [h, items_points]
      unfold planned
      refine (List.take_of_length_le ?_).symm
      rw [← List.length_map (f := Prod.snd), items_points] at hlen
      exact hlen

/-- In sequential mode the batches are single points. -/
theorem C88_exact_sequential {env : Env n} {o : Opt n} {loaded : Option (Except CkErr (Ckpt n))} {t : F64}
    {K : Nat} (hb : Built o) (hf : Fresh o loaded) (hs : o.par = false) {set : List (Sol n)}
    (hok : (run env o loaded).result = .ok set) (ht : o.maxTime = some t)
    (hlate : F64.gt (env.clock K) t = true) (hearly : ∀ k, k < K → F64.gt (env.clock k) t = false)
    (htarget : ¬ TargetMet o (run env o loaded).final.trace) :
    ∃ sc sd, Act.scatter env o = .ok sc ∧
      Opt.shuffleSeed env o.params.seed 0 = some sd ∧
      (examined (run env o loaded).final.trace).map Prod.snd = (planned env o sc sd).take K := by
  obtain ⟨sc, sd, h1, h2, h3⟩ := C88_exact hb hf hok ht hlate hearly htarget
  refine ⟨sc, sd, h1, h2, ?_⟩
  rw [h3, show o.effBatch env.threads 0 = 1 by unfold Opt.effBatch; rw [hs]; rfl, Nat.mul_one]

/-- A clock that advances by one second per batch. -/
def ticking : Env 1 := { env stay with clock := fun k => num k }

/-- Non-vacuity of `C88_stops`, `C88_cuts` and `C88_exact`: with a limit of one second the clock is late before
the third batch; the limited run succeeds with fewer examined points than the unlimited one. -/
example : Built (demoSeq.setMaxTime (num 1)) ∧ Fresh (demoSeq.setMaxTime (num 1)) none ∧
    (demoSeq.setMaxTime (num 1)).par = false ∧ F64.gt (ticking.clock 2) (num 1) = true ∧
    (∀ k, k < 2 → F64.gt (ticking.clock k) (num 1) = false) ∧
    succeeds (run ticking (demoSeq.setMaxTime (num 1)) none) = true ∧
    (examined (run ticking (demoSeq.setMaxTime (num 1)) none).final.trace).length = 2 ∧
    (examined (run ticking demoSeq none).final.trace).length = 4 :=
  ⟨Built.maxTime _ demoSeq_built, Or.inl rfl, rfl, by decide +kernel, by decide +kernel, by decide +kernel,
    by decide +kernel, by decide +kernel⟩

/-- Non-vacuity of `C88_exact` in parallel mode: with batches of three the second batch is late. -/
example : Built ((demo.setBatch 3).setMaxTime (num 0)) ∧ Fresh ((demo.setBatch 3).setMaxTime (num 0)) none ∧
    (demo.setBatch 3).par = true ∧ F64.gt (ticking.clock 1) (num 0) = true ∧
    (∀ k, k < 1 → F64.gt (ticking.clock k) (num 0) = false) ∧
    succeeds (run ticking ((demo.setBatch 3).setMaxTime (num 0)) none) = true ∧
    (examined (run ticking ((demo.setBatch 3).setMaxTime (num 0)) none).final.trace).length = 3 :=
  ⟨Built.maxTime _ (Built.batch _ demo_built), Or.inl (by decide +kernel), by decide +kernel, by decide +kernel,
    by decide +kernel, by decide +kernel, by decide +kernel⟩

/-- Non-vacuity of `C88_unreached`: a late enough limit. -/
example : demoSeq.maxTime = none ∧ (∀ k, F64.gt ((env (n := 1) stay).clock k) (num 100) = false) ∧
    succeeds (run (env stay) (demoSeq.setMaxTime (num 100)) none) = true :=
  ⟨by decide +kernel, (fun k => by
    show F64.gt F64.zero (num 100) = false
    decide +kernel), by decide +kernel⟩

/-- Non-vacuity of `C88_nan_ignored`. -/
example : ∃ t : F64, t.isNaN = true := ⟨F64.nan, by decide +kernel⟩

/-- The clock is not looked at within a batch: a parallel run whose limit passes after the first second still
works on all four candidates of its only batch, where the sequential run stops after two. -/
theorem C88_whole_batches :
    (examined (run ticking ((demo.setBatch 4).setMaxTime (num 1)) none).final.trace).length = 4 ∧
    (examined (run ticking (demoSeq.setMaxTime (num 1)) none).final.trace).length = 2 := by
  decide +kernel

end GS.Props
