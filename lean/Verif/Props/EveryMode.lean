/- Properties C95-C98: what C26, C27, C29 and C30 say about sequential stage 2, for runs of every mode and
batch size (a sequential run is the case of batches of one iteration). -/
import Verif.Lemmas.AllLoop
import Verif.Props.Stage2
import Verif.Props.Saves

namespace GS.Props
open GS F64
variable {n : Nat}

/-- Batch of an iteration in a run that works through batches of `k` iterations from iteration `st`. -/
def batchOf (st k i : Nat) : Nat := (i - st) / k

/-- Batch size of a run that starts at iteration `st`. -/
def batchSize (env : Env n) (o : Opt n) (st : Nat) : Nat := o.effBatch env.threads st

/-- The post-condition of a fresh run, in terms of `run`. -/
theorem freshAll {env : Env n} {o : Opt n} {loaded : Option (Except CkErr (Ckpt n))} (hb : Built o)
    (hf : Fresh o loaded) :
    run env o loaded = finish (Act.body env false ⟨started env o, 0, 0, []⟩) ∧
    (run env o loaded).final = (Act.body env false ⟨started env o, 0, 0, []⟩).1 ∧
    AllFresh env (started env o) (Act.body env false ⟨started env o, 0, 0, []⟩) := by
  have h1 := run_fresh env o loaded hf
  refine ⟨h1, by rw [h1, finish_final], fresh_post' env ?_⟩
  show o.solset ≠ some []
  rw [hb.unused.solset]; simp

/-! ### C95: which points are examined -/

/-- A fresh run examines a prefix of the planned points, in order, numbered from zero. -/
theorem C95_examined_in_order {env : Env n} {o : Opt n} {loaded : Option (Except CkErr (Ckpt n))}
    (hb : Built o) (hf : Fresh o loaded) :
    examined (run env o loaded).final.trace = [] ∨
    ∃ sc sd k, Act.scatter env o = .ok sc ∧
      Opt.shuffleSeed env o.params.seed 0 = some sd ∧
      (examined (run env o loaded).final.trace).map Prod.snd = (planned env o sc sd).take k ∧
      (examined (run env o loaded).final.trace).map Prod.fst =
        List.range ((planned env o sc sd).take k).length := by
  obtain ⟨_, h2, h3⟩ := freshAll (env := env) hb hf
  rw [h2]
  rcases h3.shape with ⟨h, _⟩ | ⟨sc, sd, hsc, hsd, _, ⟨k, hk⟩, _⟩
  · exact Or.inl h
  · right
    have hc : (started env o).curIter = 0 := hb.unused.curIter
    rw [hc] at hsd
    refine ⟨sc, sd, k, hsc, hsd, ?_, ?_⟩
    · rw [hk, List.map_take, items_points]; rfl
    · rw [hk, List.map_take, items_iters, List.drop_zero, List.take_range, List.length_take]
      congr 1
      unfold planned
      rw [List.length_take]
      rfl

/-- A successful run without target examines either all planned points, or, when the `j`-th test of the
time limit is the first to find it exceeded, those of the first `j` batches. -/
theorem C95_examines {env : Env n} {o : Opt n} {loaded : Option (Except CkErr (Ckpt n))}
    (hb : Built o) (hf : Fresh o loaded) {set : List (Sol n)} (hok : (run env o loaded).result = .ok set)
    (htarget : ¬ TargetMet o (run env o loaded).final.trace) :
    ∃ sc sd, Act.scatter env o = .ok sc ∧
      Opt.shuffleSeed env o.params.seed 0 = some sd ∧
      ((examined (run env o loaded).final.trace).map Prod.snd = planned env o sc sd ∨
       ∃ t j, o.maxTime = some t ∧ F64.gt (env.clock j) t = true ∧
        (∀ i, i < j → F64.gt (env.clock i) t = false) ∧
        (examined (run env o loaded).final.trace).map Prod.snd =
          (planned env o sc sd).take (j * batchSize env o 0)) := by
  obtain ⟨h1, h2, h3⟩ := freshAll (env := env) hb hf
  rw [h1] at hok
  obtain ⟨hset, hnf⟩ := finish_ok hok
  rw [h2] at htarget ⊢
  have hne : (started env o).solset ≠ some [] := by
    show o.solset ≠ some []
    rw [hb.unused.solset]; simp
  have hnt : (Act.body env false ⟨started env o, 0, 0, []⟩).1.opt.targetReached = false := by
    cases hc : (Act.body env false ⟨started env o, 0, 0, []⟩).1.opt.targetReached
    · rfl
    · exact absurd ((targetReached_iff (h3.good.hist hne)).1 hc) htarget
  generalize Act.body env false ⟨started env o, 0, 0, []⟩ = r at *
  rcases h3.shape with ⟨_, hnc, hst⟩ | ⟨sc, sd, hsc, hsd, hns, _, hcont⟩
  · exfalso
    cases ho : r.2 with
    | cont => exact hnc ho
    | stop => rw [hst ho] at hnt; cases hnt
    | fail e => exact hnf e ho
  · have hc : (started env o).curIter = 0 := hb.unused.curIter
    rw [hc] at hsd
    refine ⟨sc, sd, hsc, hsd, ?_⟩
    have hcc : r.2 = .cont := by
      cases ho : r.2 with
      | cont => rfl
      | stop => exact absurd ho hns
      | fail e => exact absurd ho (hnf e)
    rcases hcont hcc with h | h | h
    · rw [hnt] at h; cases h
    · right
      obtain ⟨j, ⟨hl, hb⟩, hj⟩ := h
      have hmt : (started env o).maxTime = o.maxTime := rfl
      unfold Act.timedOut at hl hb
      rw [hmt] at hl hb
      cases hm : o.maxTime with
      | none => rw [hm] at hl; cases hl
      | some t =>
        rw [hm] at hl hb
        simp only [Nat.zero_add] at hl hb
        refine ⟨t, j, rfl, hl, hb, ?_⟩
        rw [hj, List.map_take, items_points]; rfl
    · left
      rw [h.1, items_points]; rfl

/-- Without timeout, target or error, all planned points are examined, each exactly once: their number,
given that shuffling permutes, is the smaller of `iterations` and the size of the reference set. -/
theorem C95_examines_all {env : Env n} {o : Opt n} {loaded : Option (Except CkErr (Ckpt n))}
    (hv : env.rt.Valid) (hb : Built o) (hf : Fresh o loaded) {set : List (Sol n)}
    (hok : (run env o loaded).result = .ok set)
    (htime : ∀ t k, o.maxTime = some t → F64.gt (env.clock k) t = false)
    (htarget : ¬ TargetMet o (run env o loaded).final.trace) :
    ∃ sc sd, Act.scatter env o = .ok sc ∧
      Opt.shuffleSeed env o.params.seed 0 = some sd ∧
      (examined (run env o loaded).final.trace).map Prod.snd = planned env o sc sd ∧
      (examined (run env o loaded).final.trace).map Prod.fst =
        List.range (min o.params.iterations sc.ref.length) ∧
      ∀ q, ((examined (run env o loaded).final.trace).map Prod.snd).count q ≤
        (sc.ref.map Prod.fst).count q := by
  obtain ⟨sc, sd, h1, h2, h3⟩ := C95_examines hb hf hok htarget
  have h3 : (examined (run env o loaded).final.trace).map Prod.snd = planned env o sc sd := by
    rcases h3 with h | ⟨t, j, a, b, _⟩
    · exact h
    · rw [htime t j a] at b; cases b
  have hlen : (planned env o sc sd).length = min o.params.iterations sc.ref.length := by
    unfold planned
    rw [List.length_take, (hv.shuffle_perm sd _).length_eq, List.length_map]
  refine ⟨sc, sd, h1, h2, h3, ?_, ?_⟩
  · have h4 : (examined (run env o loaded).final.trace).length = (planned env o sc sd).length := by
      rw [← h3, List.length_map]
    rcases C95_examined_in_order (env := env) hb hf with h | ⟨sc', sd', k, a, b, c, d⟩
    · rw [h] at h4 ⊢
      rw [← hlen, ← h4]; rfl
    · rw [h1] at a; cases a
      rw [h2] at b; cases b
      rw [d, ← c, h3, hlen]
  · intro q
    rw [h3, ← (hv.shuffle_perm sd (sc.ref.map Prod.fst)).count_eq q]
    exact (List.take_sublist _ _).count_le q

/-! ### C96: when a local search is started -/

theorem prefix_of_meet {o : Opt n} {w0 : Nat} {V : Nat → Pt n → F64 → Prop} {bn : Nat → Nat}
    {tr : List (Event n)} (h : MeetAll o w0 V bn tr) :
    searched tr <+: passed tr ∧ procs tr <+: foundSols tr := by
  induction tr using List.reverseRecOn with
  | nil => exact ⟨List.prefix_refl _, List.prefix_refl _⟩
  | append_singleton tr e ih =>
    obtain ⟨a, b⟩ := ih fun pre x post hx => h pre x (post ++ [e]) (by rw [hx]; simp)
    have he := h tr e [] rfl
    rw [searched_append, passed_append, procs_append, foundSols_append]
    have p1 : ∀ {α : Type} {l k : List α} (j : List α), l <+: k → l ++ [] <+: k ++ j := by
      intro α l k j hlk
      rw [List.append_nil]
      exact hlk.trans (List.prefix_append _ _)
    cases e with
    | search it p r =>
      cases it with
      | none => exact ⟨p1 _ a, p1 _ b⟩
      | some it =>
        refine ⟨?_, p1 _ b⟩
        have : passed [Event.search (some it) p r] = [] := rfl
        rw [this, List.append_nil]
        exact he.1
    | processed s w =>
      refine ⟨p1 _ a, ?_⟩
      have : foundSols [Event.processed s w] = [] := rfl
      rw [this, List.append_nil]
      exact he.1
    | _ => exact ⟨p1 _ a, p1 _ b⟩

/-- What C96 says of a trace, for the threshold `t0` and the solutions `sols` known at the start. -/
structure DecidedByEarlierBatches (df t0 : F64) (sols : List (Sol n)) (batch : Nat → Nat)
    (tr : List (Event n)) : Prop where
  /-- a point passes exactly when its merit value is at most the threshold in force and it is farther than
  the distance factor from all solutions recorded before -/
  passes : ∀ pre it p v ok post, tr = pre ++ .examine it p v ok :: post →
    (ok = true ↔ F64.le v (inForce t0 pre) = true ∧ Far df p (sols ++ procs pre))
  /-- what was searched before are the points of earlier batches that passed, and all solutions found there
  are recorded -/
  earlier : ∀ pre it p v ok post, tr = pre ++ .examine it p v ok :: post →
    searched pre = (passed pre).filter (fun x => batch x.1 < batch it) ∧ foundSols pre = procs pre
  /-- searches start from the points that passed, in their order -/
  searches : ∀ pre it p r post, tr = pre ++ .search (some it) p r :: post →
    searched pre ++ [(it, p)] <+: passed pre
  /-- solutions are recorded in the order of the searches -/
  records : ∀ pre s w post, tr = pre ++ .processed s w :: post → procs pre ++ [s] <+: foundSols pre
  searched : searched tr <+: passed tr
  recorded : procs tr <+: foundSols tr

theorem decided_of_meet {o : Opt n} {w0 : Nat} {V : Nat → Pt n → F64 → Prop} {bn : Nat → Nat}
    {tr : List (Event n)} (h : MeetAll o w0 V bn tr) :
    DecidedByEarlierBatches o.dist.params.distanceFactor o.merit.threshold o.dist.solutions bn tr :=
  ⟨fun pre it p v ok post hx => (h pre _ post hx).1,
    fun pre it p v ok post hx =>
      let ⟨_, _, _, _, a, b⟩ := h pre _ post hx
      ⟨b, a⟩,
    fun pre it p r post hx => (h pre _ post hx).1,
    fun pre s w post hx => (h pre _ post hx).1,
    (prefix_of_meet h).1, (prefix_of_meet h).2⟩

/-- In a fresh run whether a point is searched depends only on the point and the results of earlier
batches. -/
theorem C96_decided_by_earlier_batches {env : Env n} {o : Opt n}
    {loaded : Option (Except CkErr (Ckpt n))} (hb : Built o) (hf : Fresh o loaded) :
    DecidedByEarlierBatches o.params.distanceFactor F64.inf [] (batchOf 0 (batchSize env o 0))
      (run env o loaded).final.trace := by
  obtain ⟨_, h2, h3⟩ := freshAll (env := env) hb hf
  rw [h2]
  have := decided_of_meet h3.good.meet
  rw [show (started env o).merit.threshold = F64.inf from hb.unused.merit,
    show (started env o).dist.params.distanceFactor = o.params.distanceFactor from by
      show o.dist.params.distanceFactor = _
      rw [hb.unused.dparams],
    show (started env o).dist.solutions = [] from hb.unused.sols] at this
  exact this

/-- In a resumed run too; the threshold and the known solutions continue from the checkpoint. -/
theorem C96_resumed {env : Env n} {o : Opt n} {loaded : Option (Except CkErr (Ckpt n))} {c : Ckpt n}
    (hr : Resumes o loaded c) (hne : c.solutionSet ≠ some []) (ht : (o.restore c).targetReached = false) :
    DecidedByEarlierBatches o.dist.params.distanceFactor c.meritThreshold c.distanceFilterSolutions
      (batchOf c.currentIteration (batchSize env (o.restore c) c.currentIteration))
      (run env o loaded).final.trace := by
  rw [run_resumes env o loaded hr, finish_final]
  exact decided_of_meet (resumed_post' (o := (started env o).restore c) env hne ht).good.meet

/-- When a successful fresh run did not reach the target, every point that passed was searched and every
solution found was recorded. -/
theorem C96_complete {env : Env n} {o : Opt n} {loaded : Option (Except CkErr (Ckpt n))} (hb : Built o)
    (hf : Fresh o loaded) {set : List (Sol n)} (hok : (run env o loaded).result = .ok set)
    (htarget : ¬ TargetMet o (run env o loaded).final.trace) :
    searched (run env o loaded).final.trace = passed (run env o loaded).final.trace ∧
    foundSols (run env o loaded).final.trace = procs (run env o loaded).final.trace := by
  obtain ⟨h1, h2, h3⟩ := freshAll (env := env) hb hf
  rw [h1] at hok
  obtain ⟨_, hnf⟩ := finish_ok hok
  rw [h2] at htarget ⊢
  have hne : (started env o).solset ≠ some [] := by
    show o.solset ≠ some []
    rw [hb.unused.solset]; simp
  obtain ⟨pv, ps, fs, rj, hi, hz⟩ := h3.inv hnf
  obtain ⟨_, rfl, rfl, _⟩ := hz (by
    cases hc : (Act.body env false ⟨started env o, 0, 0, []⟩).1.opt.targetReached
    · rfl
    · exact absurd ((targetReached_iff (hi.hist hne)).1 hc) htarget)
  have a := hi.srch
  have b := hi.fnd
  rw [List.append_nil] at a b
  exact ⟨a, b⟩

/-- At most one search per examined point, in the order of examination; stage 1 starts at most one. -/
theorem C96_searches_examined {env : Env n} {o : Opt n} {loaded : Option (Except CkErr (Ckpt n))}
    (hb : Built o) (hf : Fresh o loaded) :
    (searched (run env o loaded).final.trace).Sublist (examined (run env o loaded).final.trace) ∧
    ((examined (run env o loaded).final.trace).map Prod.fst).Nodup ∧
    (firstSearches (run env o loaded).final.trace).length ≤ 1 := by
  refine ⟨(C96_decided_by_earlier_batches hb hf).searched.sublist.trans ?_, ?_, ?_⟩
  · generalize (run env o loaded).final.trace = tr
    induction tr with
    | nil => exact List.Sublist.slnil
    | cons e tr ih =>
      rcases e with _ | _ | ⟨it, p, v, ok⟩ | _ | _ | _ | _ | _ | _
      case examine =>
        cases ok
        · exact List.Sublist.cons _ ih
        · exact List.Sublist.cons_cons _ ih
      all_goals exact ih
  · rcases C95_examined_in_order (env := env) hb hf with h | ⟨sc, sd, k, _, _, _, h⟩
    · rw [h]; exact List.nodup_nil
    · rw [h]; exact List.nodup_range
  · rw [(freshAll (env := env) hb hf).2.1]
    obtain ⟨t, a, b, _⟩ := bound_body_fresh env ⟨started env o, 0, 0, []⟩
    rw [a, List.nil_append]
    exact b

/-! ### C97: how the threshold moves -/

/-- What C97 says of a trace: `t0` is the threshold and `w0` the number of counted rejections at the
start. -/
structure ThresholdMoves (factor t0 : F64) (w0 cycle : Nat) (batch : Nat → Nat) (tr : List (Event n)) :
    Prop where
  /-- a relaxation follows the rejection with which the count reaches the wait cycle, and adds
  `threshold_factor * (1 + |threshold|)` -/
  relaxations : ∀ pre it new post, tr = pre ++ .relaxed it new :: post →
    new = (inForce t0 pre).add (factor.mul (F64.one.add (inForce t0 pre).abs)) ∧
    it ∈ (pendAfter w0 pre).2 ∧ max 1 cycle ≤ rejections w0 pre (fun j => j ≤ it) ∧
    (w0 < max 1 cycle → rejections w0 pre (fun j => j ≤ it) = max 1 cycle)
  /-- no batch is begun with a full count -/
  counted : w0 < max 1 cycle → ∀ pre it p v ok post, tr = pre ++ .examine it p v ok :: post →
    rejections w0 pre (fun j => batch j < batch it) < max 1 cycle
  /-- checkpoints hold the threshold in force -/
  saved : ∀ pre it c post, tr = pre ++ .saved it c :: post → c.meritThreshold = inForce t0 pre

theorem moves_of_meet {o : Opt n} {w0 : Nat} {V : Nat → Pt n → F64 → Prop} {bn : Nat → Nat}
    {tr : List (Event n)} (h : MeetAll o w0 V bn tr) :
    ThresholdMoves o.params.thresholdFactor o.merit.threshold w0 o.params.waitCycle bn tr :=
  ⟨fun pre it new post hx => h pre _ post hx,
    fun hw pre it p v ok post hx => (h pre _ post hx).2.2.2.1 hw,
    fun pre it c post hx => h pre _ post hx⟩

/-- The threshold of a fresh run is read off its events, in every mode. -/
theorem C97_threshold {env : Env n} {o : Opt n} {loaded : Option (Except CkErr (Ckpt n))} (hb : Built o)
    (hf : Fresh o loaded) :
    ThresholdMoves o.params.thresholdFactor F64.inf 0 o.params.waitCycle (batchOf 0 (batchSize env o 0))
      (run env o loaded).final.trace ∧
    ∀ set, (run env o loaded).result = .ok set →
      (run env o loaded).final.opt.merit.threshold = inForce F64.inf (run env o loaded).final.trace ∧
      (¬ TargetMet o (run env o loaded).final.trace →
        rejections 0 (run env o loaded).final.trace (fun _ => true) < max 1 o.params.waitCycle) := by
  obtain ⟨h1, h2, h3⟩ := freshAll (env := env) hb hf
  have hm : (started env o).merit.threshold = F64.inf := hb.unused.merit
  have hne : (started env o).solset ≠ some [] := by
    show o.solset ≠ some []
    rw [hb.unused.solset]; simp
  rw [h2, h1]
  constructor
  · have := moves_of_meet h3.good.meet
    rw [hm] at this
    exact this
  · intro set hok
    obtain ⟨_, hnf⟩ := finish_ok hok
    obtain ⟨pv, ps, fs, rj, hi, hz⟩ := h3.inv hnf
    refine ⟨?_, fun htarget => ?_⟩
    · rw [← hi.inForce, hm]
    · obtain ⟨_, _, _, rfl⟩ := hz (by
        cases hc : (Act.body env false ⟨started env o, 0, 0, []⟩).1.opt.targetReached
        · rfl
        · exact absurd ((targetReached_iff (hi.hist hne)).1 hc) htarget)
      obtain ⟨D, d1, d2, _⟩ := hi.wait
      rw [List.append_nil] at d1
      have := hi.lim (show 0 < max 1 _ by omega)
      unfold rejections
      rw [List.filter_eq_self.2 (fun _ _ => rfl), d1, ← d2]
      exact this

/-- The same for a resumed run; the count of rejections continues from the checkpoint. -/
theorem C97_resumed {env : Env n} {o : Opt n} {loaded : Option (Except CkErr (Ckpt n))} {c : Ckpt n}
    (hr : Resumes o loaded c) (hne : c.solutionSet ≠ some []) (ht : (o.restore c).targetReached = false) :
    ThresholdMoves c.params.thresholdFactor c.meritThreshold c.unchangedCycles c.params.waitCycle
      (batchOf c.currentIteration (batchSize env (o.restore c) c.currentIteration))
      (run env o loaded).final.trace := by
  rw [run_resumes env o loaded hr, finish_final]
  exact moves_of_meet (resumed_post' (o := (started env o).restore c) env hne ht).good.meet

/-! ### C98: stopping at the target -/

theorem after_target {o : Opt n} {w0 : Nat} {V : Nat → Pt n → F64 → Prop} {bn : Nat → Nat}
    {tr pre post : List (Event n)} (hm : MeetAll o w0 V bn tr) (h0 : ¬ TargetMet o [])
    (h : tr = pre ++ post) (ht : TargetMet o pre) :
    TargetMet o tr ∧ ∀ e ∈ post, ∀ it p v ok r s w, e ≠ .examine it p v ok ∧
      e ≠ .search (some it) p r ∧ e ≠ .processed s w := by
  have hsame : ∀ a b, procs a = procs b → TargetMet o a → TargetMet o b := by
    intro a b hab hm
    unfold TargetMet at hm ⊢
    rw [← hab]; exact hm
  have hall : ∀ k l, post = k ++ l → TargetMet o (pre ++ k) ∧
      ∀ e ∈ k, ∀ it p v ok r s w, e ≠ .examine it p v ok ∧ e ≠ .search (some it) p r ∧
        e ≠ .processed s w := by
    intro k
    induction k using List.reverseRecOn with
    | nil => intro l _; exact ⟨by rw [List.append_nil]; exact ht, by simp⟩
    | append_singleton k e ih =>
      intro l hl
      obtain ⟨a, b⟩ := ih ([e] ++ l) (by rw [hl, List.append_assoc])
      have htr : tr = (pre ++ k) ++ e :: l := by
        rw [h, hl]; simp
      have hme := hm _ _ _ htr
      have he : ∀ it p v ok r s w, e ≠ .examine it p v ok ∧ e ≠ .search (some it) p r ∧
          e ≠ .processed s w := by
        intro it p v ok r s w
        refine ⟨?_, ?_, ?_⟩ <;> rintro rfl
        · exact hme.2.2.1 a
        · exact hme.2 a
        · rcases hme.2 with ⟨_, hp⟩ | hp
          · exact h0 (hsame _ _ (by rw [hp]; rfl) a)
          · exact hp a
      refine ⟨hsame _ _ ?_ a, ?_⟩
      · rw [← List.append_assoc, procs_append (pre ++ k) [e]]
        have : procs [e] = [] := by
          cases e with
          | processed s w => exact absurd rfl (he 0 s.point F64.zero true (.error .runFailed) s w).2.2
          | _ => rfl
        rw [this, List.append_nil]
      · intro x hx
        rcases List.mem_append.1 hx with hx | hx
        · exact b x hx
        · rw [List.mem_singleton] at hx; subst hx; exact he
  obtain ⟨hfin, hno⟩ := hall post [] (by simp)
  rw [h]
  exact ⟨hfin, hno⟩

/-- How a run ends that has reached the target of `o`: with a set whose best objective is at most the
target, or because writing a checkpoint failed, or by the panic of a callback of frequency zero. -/
def EndsAtTarget (o : Opt n) (r : RunResult n) : Prop :=
  (∃ set b t, r.result = .ok set ∧ bestSolution set = some b ∧ o.target = some t ∧
    F64.le b.objective t = true ∧ (o.exclude = true → withinBounds o.problem b.point = true)) ∨
  (∃ e, r.result = .error (.checkpoint e)) ∨
  (r.result = .error .panic ∧ ZeroFrequency r.final.opt)

theorem ends_at_target {o : Opt n} {env : Env n} {w0 : Nat} {V : Nat → Pt n → F64 → Prop} {bn : Nat → Nat}
    {r : M n × Out} (hg : MeetRun env o w0 V bn r.1) (hne : o.solset ≠ some [])
    (hf : ∀ e, r.2 = .fail e → r.1.opt.targetReached = false ∨ (∃ c, e = .checkpoint c) ∨
      (e = .panic ∧ ZeroFrequency r.1.opt)) (ht : TargetMet o r.1.trace) : EndsAtTarget o (finish r) := by
  have hreach := (targetReached_iff (hg.hist hne)).2 ht
  have hss := (hg.hist hne).solset
  obtain ⟨m, out⟩ := r
  obtain ⟨t, set, b, c1, c2, c3, c4, c5⟩ := ht
  have hset : m.opt.solset = some set := hss.trans c2
  cases out with
  | fail e =>
    right
    rcases hf e rfl with hc | ⟨c, rfl⟩ | ⟨rfl, hz⟩
    · rw [show m.opt.targetReached = true from hreach] at hc; cases hc
    · exact Or.inl ⟨c, rfl⟩
    · exact Or.inr ⟨rfl, hz⟩
  | _ =>
    left
    refine ⟨set, b, t, ?_, c3, c1, c4, c5⟩
    unfold finish
    dsimp only
    rw [hset]

/-- Once the best recorded solution reaches the target, nothing more is examined, searched or recorded. -/
theorem C98_target_stops {env : Env n} {o : Opt n} {loaded : Option (Except CkErr (Ckpt n))}
    (hb : Built o) (hf : Fresh o loaded) {pre post : List (Event n)}
    (h : (run env o loaded).final.trace = pre ++ post) (ht : TargetMet o pre) :
    (∀ e ∈ post, ∀ it p v ok r s w, e ≠ .examine it p v ok ∧ e ≠ .search (some it) p r ∧
      e ≠ .processed s w) ∧ EndsAtTarget o (run env o loaded) := by
  obtain ⟨h1, h2, h3⟩ := freshAll (env := env) hb hf
  have hne : (started env o).solset ≠ some [] := by
    show o.solset ≠ some []
    rw [hb.unused.solset]; simp
  rw [h2] at h
  obtain ⟨a, b⟩ := after_target h3.good.meet (fun ⟨t, set, b, _, c2, _⟩ => by
    rw [show (started env o).solset = none from hb.unused.solset] at c2; cases c2) h ht
  refine ⟨b, ?_⟩
  rw [h1]
  have := ends_at_target h3.good hne (h3.fail (started_target hb)) a
  exact this

/-- The same for a resumed run whose checkpoint does not reach the target yet. -/
theorem C98_resumed {env : Env n} {o : Opt n} {loaded : Option (Except CkErr (Ckpt n))} {c : Ckpt n}
    (hr : Resumes o loaded c) (hne : c.solutionSet ≠ some []) (h0 : (o.restore c).targetReached = false)
    {pre post : List (Event n)}
    (h : (run env o loaded).final.trace = pre ++ post) (ht : TargetMet (o.restore c) pre) :
    (∀ e ∈ post, ∀ it p v ok r s w, e ≠ .examine it p v ok ∧ e ≠ .search (some it) p r ∧
      e ≠ .processed s w) ∧ EndsAtTarget (o.restore c) (run env o loaded) := by
  have hp := resumed_post' (o := (started env o).restore c) env hne h0
  rw [run_resumes env o loaded hr] at h ⊢
  rw [finish_final] at h
  obtain ⟨a, b⟩ := after_target hp.good.meet (fun hm => by
    have h4 := (targetReached_iff (AllInv.start env ((started env o).restore c) 0
      (fun _ _ _ => True) (fun _ => 0) |>.hist hne)).2 hm
    have h5 : ((started env o).restore c).targetReached = false := h0
    rw [show (({ opt := (started env o).restore c, uc := 0, saves := 0, trace := [] } : M n).opt) =
      (started env o).restore c from rfl, h5] at h4
    cases h4) h ht
  have := ends_at_target hp.good hne hp.fail a
  exact ⟨b, this⟩

/-- Without a target and a time limit a successful run examines all its iterations. -/
theorem C98_no_target_examines_all {env : Env n} {o : Opt n}
    {loaded : Option (Except CkErr (Ckpt n))} (hv : env.rt.Valid) (hb : Built o)
    (hf : Fresh o loaded) {set : List (Sol n)}
    (hok : (run env o loaded).result = .ok set) (htime : o.maxTime = none) (htarget : o.target = none) :
    ∃ sc, Act.scatter env o = .ok sc ∧ (examined (run env o loaded).final.trace).length =
      min o.params.iterations sc.ref.length := by
  obtain ⟨sc, _, h1, _, _, h2, _⟩ := C95_examines_all hv hb hf hok
    (fun t k h => by rw [htime] at h; cases h) (fun ⟨t, _, _, h, _⟩ => by rw [htarget] at h; cases h)
  have := congrArg List.length h2
  rw [List.length_map, List.length_range] at this
  exact ⟨sc, h1, this⟩

/-! ### C28 and C49 in every mode -/

/-- Part of C28, in every mode: see `C28_merit_value_partial`. -/
theorem C28_every_mode_partial {env : Env n} {o : Opt n} {loaded : Option (Except CkErr (Ckpt n))} :
    (∀ c, Resumes o loaded c → c.solutionSet ≠ some [] → (o.restore c).targetReached = false →
      ∀ it p v ok, Event.examine it p v ok ∈ (run env o loaded).final.trace →
        o.problem.objective p = .ok v) ∧
    (Built o → Fresh o loaded →
      ∀ it p v ok, Event.examine it p v ok ∈ (run env o loaded).final.trace →
        ∃ sc, Act.scatter env o = .ok sc ∧ (sc.ref.map Prod.snd)[it % sc.ref.length]? = some v) := by
  constructor
  · intro c hr hne ht it p v ok hmem
    rw [run_resumes env o loaded hr, finish_final] at hmem
    obtain ⟨pre, post, h⟩ := List.append_of_mem hmem
    exact ((resumed_post' (o := (started env o).restore c) env hne ht).good.meet pre _ post h).2.1
  · intro hb hf it p v ok hmem
    obtain ⟨_, h2, h3⟩ := freshAll (env := env) hb hf
    rw [h2] at hmem
    obtain ⟨pre, post, h⟩ := List.append_of_mem hmem
    exact (h3.good.meet pre _ post h).2.1

/-! ### Examples and counterexamples -/

open Witness

/-- The demo run is parallel with batches of two, succeeds without time limit or target, examines four
points and relaxes the threshold. -/
example : Built demo ∧ Fresh demo none ∧ demo.par = true ∧ batchSize (env stay) demo 0 = 2 ∧
    demo.maxTime = none ∧ demo.target = none ∧
    (∃ set, (run (env stay) demo none).result = .ok set) ∧
    (examined (run (env stay) demo none).final.trace).length = 4 ∧
    (passed (run (env stay) demo none).final.trace).length = 2 ∧
    ((run (env stay) demo none).final.trace.any fun e => match e with
      | .relaxed .. => true
      | _ => false) = true :=
  ⟨demo_built, Or.inl rfl, by decide +kernel, by decide +kernel, by decide +kernel, by decide +kernel,
    succeeds_iff (by decide +kernel), by decide +kernel, by decide +kernel, by decide +kernel⟩

/-- Parameters with six iterations, wait cycle one and a small distance factor. -/
def wide : Params :=
  { params 6 8 0 with waitCycle := 1, thresholdFactor := num 1, distanceFactor := F64.lit 1 100 }

theorem wide_ok : (Opt.new lin wide).toOption.isSome = true := by decide +kernel

/-- Parallel optimizer with these parameters and batches of two iterations. -/
def wideOpt : Opt 1 := (mk lin wide wide_ok).setBatch 2

/-- Local search that always finds the minimum. -/
def toOne (_ : SolverType) (_ : SolverConfig) (_ : Pt 1) : Except LErr (Sol 1 × Nat) :=
  .ok (⟨pt (num 1), num 1⟩, 1)

def wideEnv : Env 1 := { env toOne with rt := rtWith (fun _ i => num (2 + i % 3)) (fun _ _ => num 0) }

/-- Does recording a solution that is no new best raise the threshold? -/
def recordRaises (tr : List (Event 1)) : Bool :=
  (List.range tr.length).any fun k =>
    match tr[k]? with
    | some (.processed _ w) => decide (w ≠ .first) && decide (w ≠ .newBest) &&
      F64.lt (inForce F64.inf (tr.take k)) (inForce F64.inf (tr.take (k + 1)))
    | _ => false

/-- Inside a batch the threshold can rise without being relaxed: two points pass, and recording the
solution of the second replaces the merit value of the first by the larger one of the second, although
every local search finds the minimum. -/
theorem C97_record_can_raise : Built wideOpt ∧ wideEnv.rt.Valid ∧ batchSize wideEnv wideOpt 0 = 2 ∧
    recordRaises (run wideEnv wideOpt none).final.trace = true ∧
    succeeds (run wideEnv wideOpt none) = true := by
  refine ⟨Built.batch 2 (mk_built wide_ok), rtWith_valid _ _, ?_, ?_, ?_⟩ <;> decide +kernel

/-- Local search that finds 1 from the far end and stays elsewhere. -/
def jump (_ : SolverType) (_ : SolverConfig) (p : Pt 1) : Except LErr (Sol 1 × Nat) :=
  if F64.le (num 4) (p 0) then .ok (⟨pt (F64.lit 1 2), F64.lit 1 2⟩, 1) else .ok (⟨p, p 0⟩, 1)

/-- With target 1/2 the parallel demo stops in its first batch: of two solutions found only one is
recorded. -/
example : TargetMet (demo.setTarget (F64.lit 1 2))
      (run (env jump) (demo.setTarget (F64.lit 1 2)) none).final.trace ∧
    (examined (run (env jump) (demo.setTarget (F64.lit 1 2)) none).final.trace).length = 2 ∧
    (foundSols (run (env jump) (demo.setTarget (F64.lit 1 2)) none).final.trace).length = 3 ∧
    (procs (run (env jump) (demo.setTarget (F64.lit 1 2)) none).final.trace).length = 2 := by
  refine ⟨?_, by decide +kernel, by decide +kernel, by decide +kernel⟩
  exact ⟨F64.lit 1 2, [⟨pt (F64.lit 1 2), F64.lit 1 2⟩], ⟨pt (F64.lit 1 2), F64.lit 1 2⟩, rfl,
    by decide +kernel, by decide +kernel, by decide +kernel, fun h => absurd h (by decide +kernel)⟩

/-- The same with checkpoints. -/
def wideSaving : Opt 1 := wideOpt.withCheckpointing ⟨"run", 1, true, true⟩

/-- The hypotheses of the theorems about resumed runs hold for every checkpoint this parallel run writes,
and the resumed runs go on in batches of two iterations. -/
example : savedIn (run wideEnv wideSaving none).final.trace ≠ [] ∧
    ∀ c ∈ savedIn (run wideEnv wideSaving none).final.trace,
      (Resumes wideSaving (some (.ok c)) c) ∧ ((c.solutionSet.getD []).isEmpty = false ∧
        (wideSaving.restore c).targetReached = false ∧
        batchSize wideEnv (wideSaving.restore c) c.currentIteration = 2) :=
  ⟨by decide +kernel, fun c hc => ⟨⟨rfl, _, rfl, rfl⟩, by revert c; decide +kernel⟩⟩

end GS.Props
