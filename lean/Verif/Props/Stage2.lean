/- Properties C26-C30: what sequential stage 2 examines, when it searches, how the threshold moves and
when it stops.  All of them speak about the event trace of `run`. -/
import Verif.Lemmas.Count
import Verif.Lemmas.Record
import Verif.Lemmas.Demo

namespace GS.Props
open GS F64
variable {n : Nat}

/-- The post-condition of a fresh sequential run, in terms of `run`. -/
theorem freshPost {env : Env n} {o : Opt n} {loaded : Option (Except CkErr (Ckpt n))} (hb : Built o)
    (hf : Fresh o loaded) (hs : Sequential env o 0) :
    run env o loaded = finish (Act.body env false ⟨started env o, 0, 0, []⟩) ∧
    (run env o loaded).final = (Act.body env false ⟨started env o, 0, 0, []⟩).1 ∧
    FreshPost env (started env o) (Act.body env false ⟨started env o, 0, 0, []⟩) := by
  have h1 := run_fresh env o loaded hf
  refine ⟨h1, by rw [h1, finish_final], fresh_post ?_ ?_⟩
  · show o.solset ≠ some []
    rw [hb.unused.solset]; simp
  · have := hs.eff
    show ¬ 1 < o.effBatch env.threads 0
    omega

theorem started_target {env : Env n} {o : Opt n} (hb : Built o) :
    (started env o).targetReached = false := by
  unfold Opt.targetReached
  rw [show (started env o).solset = none from hb.unused.solset]
  cases (started env o).target <;> rfl

/-! ### C26: which points are examined -/

/-- The points of the shuffled reference set a fresh run is meant to examine. -/
def planned (env : Env n) (o : Opt n) (sc : Scatter.Result n) (sd : Nat) : List (Pt n) :=
  (env.rt.shuffle sd (sc.ref.map Prod.fst)).take o.params.iterations

/-- A fresh sequential run examines a prefix of the planned points, in order, numbered from zero. -/
theorem C26_examined_in_order {env : Env n} {o : Opt n} {loaded : Option (Except CkErr (Ckpt n))}
    (hb : Built o) (hf : Fresh o loaded) (hs : Sequential env o 0) :
    examined (run env o loaded).final.trace = [] ∨
    ∃ sc sd k, Act.scatter env o = .ok sc ∧
      Opt.shuffleSeed env o.params.seed 0 = some sd ∧
      (examined (run env o loaded).final.trace).map Prod.snd = (planned env o sc sd).take k ∧
      (examined (run env o loaded).final.trace).map Prod.fst =
        List.range ((planned env o sc sd).take k).length := by
  obtain ⟨_, h2, h3⟩ := freshPost hb hf hs
  rw [h2]
  rcases h3.shape with ⟨h, _⟩ | ⟨sc, sd, hsc, hsd, _, ⟨k, hk⟩, _⟩
  · exact Or.inl h
  · right
    have hc : (started env o).curIter = 0 := hb.unused.curIter
    rw [hc] at hsd
    refine ⟨sc, sd, k, hsc, hsd, ?_, ?_⟩
    · rw [hk, List.map_take, items_points]; rfl
    · rw [hk, List.map_take, items_iters, List.drop_zero, List.take_range, List.length_take]
      congr 1
      unfold planned
      rw [List.length_take]
      rfl

/-- Without timeout, target or error, all planned points are examined, each exactly once. -/
theorem C26_examines_all {env : Env n} {o : Opt n} {loaded : Option (Except CkErr (Ckpt n))}
    (hb : Built o) (hf : Fresh o loaded) (hs : Sequential env o 0) {set : List (Sol n)}
    (hok : (run env o loaded).result = .ok set)
    (htime : ∀ t k, o.maxTime = some t → F64.gt (env.clock k) t = false)
    (htarget : ¬ TargetMet o (run env o loaded).final.trace) :
    ∃ sc sd, Act.scatter env o = .ok sc ∧
      Opt.shuffleSeed env o.params.seed 0 = some sd ∧
      (examined (run env o loaded).final.trace).map Prod.snd = planned env o sc sd ∧
      (examined (run env o loaded).final.trace).map Prod.fst =
        List.range (planned env o sc sd).length := by
  obtain ⟨h1, h2, h3⟩ := freshPost hb hf hs
  rw [h1] at hok
  obtain ⟨hset, hnf⟩ := finish_ok hok
  rw [h2] at htarget ⊢
  have hne : (started env o).solset ≠ some [] := by
    show o.solset ≠ some []
    rw [hb.unused.solset]; simp
  have hnt : (Act.body env false ⟨started env o, 0, 0, []⟩).1.opt.targetReached = false := by
    cases hc : (Act.body env false ⟨started env o, 0, 0, []⟩).1.opt.targetReached
    · rfl
    · exact absurd ((targetReached_iff (h3.inv.hist hne)).1 hc) htarget
  have hto : ¬ ∃ k, Act.timedOut env (started env o) k = true := by
    rintro ⟨k, hk⟩
    unfold Act.timedOut at hk
    rw [show (started env o).maxTime = o.maxTime from rfl] at hk
    cases hm : o.maxTime with
    | none => rw [hm] at hk; cases hk
    | some t => rw [hm] at hk; dsimp only at hk; rw [htime t k hm] at hk; cases hk
  generalize Act.body env false ⟨started env o, 0, 0, []⟩ = r at *
  rcases h3.shape with ⟨_, hnc, hst⟩ | ⟨sc, sd, hsc, hsd, hns, _, hcont⟩
  · exfalso
    cases ho : r.2 with
    | cont => exact hnc ho
    | stop => rw [hst ho] at hnt; cases hnt
    | fail e => exact hnf e ho
  · have hc : (started env o).curIter = 0 := hb.unused.curIter
    rw [hc] at hsd
    refine ⟨sc, sd, hsc, hsd, ?_⟩
    have hcc : r.2 = .cont := by
      cases ho : r.2 with
      | cont => rfl
      | stop => exact absurd ho hns
      | fail e => exact absurd ho (hnf e)
    rcases hcont hcc with h | h | h
    · rw [hnt] at h; cases h
    · obtain ⟨j, hj, _⟩ := h
      exact absurd ⟨_, hj.1⟩ hto
    · rw [h.1, items_points, items_iters, List.drop_zero]
      refine ⟨rfl, ?_⟩
      unfold planned
      rw [List.length_take]
      rfl

/-- The number of examined points, given that shuffling permutes. -/
theorem C26_count {env : Env n} {o : Opt n} {loaded : Option (Except CkErr (Ckpt n))}
    (hv : env.rt.Valid) (hb : Built o) (hf : Fresh o loaded) (hs : Sequential env o 0)
    {set : List (Sol n)} (hok : (run env o loaded).result = .ok set)
    (htime : ∀ t k, o.maxTime = some t → F64.gt (env.clock k) t = false)
    (htarget : ¬ TargetMet o (run env o loaded).final.trace) :
    ∃ sc, Act.scatter env o = .ok sc ∧ (examined (run env o loaded).final.trace).length =
      min o.params.iterations sc.ref.length ∧
      ∀ q, ((examined (run env o loaded).final.trace).map Prod.snd).count q ≤
        (sc.ref.map Prod.fst).count q := by
  obtain ⟨sc, sd, h1, _, h3, _⟩ := C26_examines_all hb hf hs hok htime htarget
  refine ⟨sc, h1, ?_, ?_⟩
  · have := congrArg List.length h3
    rw [List.length_map] at this
    rw [this]
    unfold planned
    rw [List.length_take, (hv.shuffle_perm sd _).length_eq, List.length_map]
  · intro q
    rw [h3, ← (hv.shuffle_perm sd (sc.ref.map Prod.fst)).count_eq q]
    exact (List.take_sublist _ _).count_le q

/-- Stage 2 searches only from examined points, at most once per examined point and in the order of
examination; stage 1 starts at most one search. -/
theorem C26_searches_examined {env : Env n} {o : Opt n} {loaded : Option (Except CkErr (Ckpt n))}
    (hb : Built o) (hf : Fresh o loaded) (hs : Sequential env o 0) :
    (searched (run env o loaded).final.trace).Sublist (examined (run env o loaded).final.trace) ∧
    ((examined (run env o loaded).final.trace).map Prod.fst).Nodup ∧
    (firstSearches (run env o loaded).final.trace).length ≤ 1 := by
  have hord := C26_examined_in_order hb hf hs
  obtain ⟨_, h2, h3⟩ := freshPost hb hf hs
  refine ⟨?_, ?_, ?_⟩
  · rw [h2, h3.inv.srch]
    generalize (Act.body env false ⟨started env o, 0, 0, []⟩).1.trace = tr
    induction tr with
    | nil => exact List.Sublist.slnil
    | cons e tr ih =>
      rcases e with _ | _ | ⟨it, p, v, ok⟩ | _ | _ | _ | _ | _ | _
      case examine => 
        cases ok
        · exact List.Sublist.cons _ ih
        · exact List.Sublist.cons_cons _ ih
      all_goals exact ih
  · rcases hord with h | ⟨sc, sd, k, _, _, _, h⟩
    · rw [h]; exact List.nodup_nil
    · rw [h]; exact List.nodup_range
  · rw [h2]
    obtain ⟨t, a, b, _⟩ := bound_body_fresh env ⟨started env o, 0, 0, []⟩
    rw [a, List.nil_append]
    exact b

/-! ### C27: when a local search is started -/

/-- In a fresh sequential run a point is searched exactly when its merit value is at most the current
threshold and it is farther than the distance factor from all local solutions found before; the search
directly follows the examination. -/
theorem C27_search_iff {env : Env n} {o : Opt n} {loaded : Option (Except CkErr (Ckpt n))}
    (hb : Built o) (hf : Fresh o loaded) (hs : Sequential env o 0) :
    (∀ pre it p v ok post, (run env o loaded).final.trace = pre ++ .examine it p v ok :: post →
      (ok = true ↔ F64.le v (thrAfter F64.inf pre) = true ∧
        Far o.params.distanceFactor p (procs pre))) ∧
    (∀ pre it p r post, (run env o loaded).final.trace = pre ++ .search (some it) p r :: post →
      ∃ pre' v, pre = pre' ++ [.examine it p v true]) ∧
    searched (run env o loaded).final.trace = passed (run env o loaded).final.trace := by
  obtain ⟨_, h2, h3⟩ := freshPost hb hf hs
  rw [h2]
  refine ⟨?_, ?_, h3.inv.srch⟩
  · intro pre it p v ok post h
    have := (h3.inv.just pre _ post h).1
    rw [show (started env o).merit.threshold = F64.inf from hb.unused.merit,
      show (started env o).dist.params.distanceFactor = o.params.distanceFactor from by
        show o.dist.params.distanceFactor = _
        rw [hb.unused.dparams],
      show (started env o).dist.solutions = [] from hb.unused.sols, List.nil_append] at this
    exact this
  · intro pre it p r post h
    exact h3.inv.just pre _ post h

/-- "Found before" misses nothing: the solutions returned by local searches and the recorded ones are
the same, in the same order, and each is recorded directly after its search. -/
theorem C27_solutions_recorded {env : Env n} {o : Opt n} {loaded : Option (Except CkErr (Ckpt n))}
    (hb : Built o) (hf : Fresh o loaded) (hs : Sequential env o 0) :
    foundSols (run env o loaded).final.trace = procs (run env o loaded).final.trace ∧
    ∀ pre s v post, (run env o loaded).final.trace = pre ++ .processed s v :: post →
      (∃ pre' it p, pre = pre' ++ [.search (some it) p (.ok s)]) ∨
        (examined pre = [] ∧ procs pre = []) := by
  obtain ⟨_, h2, h3⟩ := freshPost hb hf hs
  rw [h2]
  refine ⟨record_fresh (o := started env o) ?_, ?_⟩
  · have := hs.eff
    show ¬ 1 < o.effBatch env.threads 0
    omega
  · intro pre s v post h
    exact h3.inv.just pre _ post h

/-- The same for a resumed sequential run: the threshold and the known solutions continue from the
checkpoint; the distance factor is that of the optimizer that resumes. -/
theorem C27_resumed {env : Env n} {o : Opt n} {loaded : Option (Except CkErr (Ckpt n))} {c : Ckpt n}
    (hr : Resumes o loaded c) (hs : Sequential env (o.restore c) c.currentIteration)
    (hne : c.solutionSet ≠ some []) (ht : (o.restore c).targetReached = false) :
    (∀ pre it p v ok post, (run env o loaded).final.trace = pre ++ .examine it p v ok :: post →
      (ok = true ↔ F64.le v (thrAfter c.meritThreshold pre) = true ∧
        Far o.dist.params.distanceFactor p (c.distanceFilterSolutions ++ procs pre))) ∧
    searched (run env o loaded).final.trace = passed (run env o loaded).final.trace := by
  rw [run_resumes env o loaded hr, finish_final]
  have h3 := resumed_post (env := env) (o := (started env o).restore c) hne ht (by
    have := hs.eff
    show ¬ 1 < (o.restore c).effBatch env.threads c.currentIteration
    omega)
  refine ⟨?_, h3.inv.srch⟩
  intro pre it p v ok post h
  exact (h3.inv.just pre _ post h).1

/-! ### C28: the merit value of a point -/

/-- Part of C28.  In a resumed run the compared value is the objective at the point; in a fresh run it
is the objective at the point that stood at the same position before shuffling.  The full property
(the value is the objective at the examined point) is false for fresh runs: `C28_violated`. -/
theorem C28_merit_value_partial {env : Env n} {o : Opt n} {loaded : Option (Except CkErr (Ckpt n))} :
    (∀ c, Resumes o loaded c → Sequential env (o.restore c) c.currentIteration →
      c.solutionSet ≠ some [] → (o.restore c).targetReached = false →
      ∀ it p v ok, Event.examine it p v ok ∈ (run env o loaded).final.trace →
        o.problem.objective p = .ok v) ∧
    (Built o → Fresh o loaded → Sequential env o 0 →
      ∀ it p v ok, Event.examine it p v ok ∈ (run env o loaded).final.trace →
        ∃ sc, Act.scatter env o = .ok sc ∧ (sc.ref.map Prod.snd)[it % sc.ref.length]? = some v) := by
  constructor
  · intro c hr hs hne ht it p v ok hmem
    rw [run_resumes env o loaded hr, finish_final] at hmem
    have h3 := resumed_post (env := env) (o := (started env o).restore c) hne ht (by
      have := hs.eff
      show ¬ 1 < (o.restore c).effBatch env.threads c.currentIteration
      omega)
    obtain ⟨pre, post, h⟩ := List.append_of_mem hmem
    exact (h3.inv.just pre _ post h).2.1
  · intro hb hf hs it p v ok hmem
    obtain ⟨_, h2, h3⟩ := freshPost hb hf hs
    rw [h2] at hmem
    obtain ⟨pre, post, h⟩ := List.append_of_mem hmem
    exact (h3.inv.just pre _ post h).2.1

/-! ### C29: how the threshold moves -/

/-- Part of C29.  The threshold after the run is the one read off the trace: it changes only when a
search is started (to a value that is not larger), when a first or new best solution is recorded (to
its objective), and when it is relaxed.  A relaxation happens exactly when the number of rejections
since the last one reaches the wait cycle, once, and restarts the count: no further point is examined
with a full count.  Missing: that recording a new best solution does not raise the threshold; it can,
see `C29_violated`. -/
theorem C29_threshold_partial {env : Env n} {o : Opt n} {loaded : Option (Except CkErr (Ckpt n))}
    (hb : Built o) (hf : Fresh o loaded) (hs : Sequential env o 0) :
    (run env o loaded).final.opt.merit.threshold = thrAfter F64.inf (run env o loaded).final.trace ∧
    (∀ pre it p v post, (run env o loaded).final.trace = pre ++ .examine it p v true :: post →
      F64.le (thrAfter F64.inf (pre ++ [.examine it p v true])) (thrAfter F64.inf pre) = true) ∧
    (∀ pre it new post, (run env o loaded).final.trace = pre ++ .relaxed it new :: post →
      new = Opt.relaxed o.params.thresholdFactor (thrAfter F64.inf pre) ∧
      waitAfter 0 pre = max 1 o.params.waitCycle ∧
      ∃ pre' it p v, pre = pre' ++ [.examine it p v false]) ∧
    (∀ pre it p v ok post, (run env o loaded).final.trace = pre ++ .examine it p v ok :: post →
      waitAfter 0 pre < max 1 o.params.waitCycle) ∧
    waitAfter 0 (run env o loaded).final.trace < max 1 o.params.waitCycle := by
  obtain ⟨_, h2, h3⟩ := freshPost hb hf hs
  rw [h2]
  have hm : (started env o).merit.threshold = F64.inf := hb.unused.merit
  have h0 : 0 < Nat.max 1 (started env o).params.waitCycle := by
    show 0 < max 1 _
    omega
  refine ⟨?_, ?_, ?_, ?_, ?_⟩
  · rw [h3.inv.thr, hm]
  · intro pre it p v post h
    have := ((h3.inv.just pre _ post h).1.1 rfl).1
    rw [hm] at this
    rw [thrAfter_snoc]
    exact this
  · intro pre it new post h
    obtain ⟨a, _, c, d⟩ := h3.inv.just pre _ post h
    rw [hm] at a
    exact ⟨a, c h0, d⟩
  · intro pre it p v ok post h
    exact (h3.inv.just pre _ post h).2.2.2 h0
  · have := h3.inv.wait h0
    rw [h3.inv.uc] at this
    exact this

/-- With a local search that ends no higher than the merit value it was started with, a stage-2 search
never raises the threshold: after recording its solution the threshold is at most what it was before
the point was examined. -/
theorem C29_search_lowers_partial {env : Env n} {o : Opt n} {loaded : Option (Except CkErr (Ckpt n))}
    (hb : Built o) (hf : Fresh o loaded) (hs : Sequential env o 0) {pre post : List (Event n)}
    {it : Nat} {p : Pt n} {v : F64} {s : Sol n} {w : Verdict}
    (h : (run env o loaded).final.trace =
      pre ++ .examine it p v true :: .search (some it) p (.ok s) :: .processed s w :: post)
    (hdesc : F64.le s.objective v = true) :
    F64.le (thrAfter F64.inf (pre ++ [.examine it p v true, .search (some it) p (.ok s),
      .processed s w])) (thrAfter F64.inf pre) = true := by
  have hle := ((C27_search_iff hb hf hs).1 pre it p v true _ h).1 rfl
  have : thrAfter F64.inf (pre ++ [.examine it p v true, .search (some it) p (.ok s),
      .processed s w]) = thrStep v (.processed s w) := by
    unfold thrAfter
    rw [List.foldl_append]
    rfl
  rw [this]
  cases w <;> first | exact hle.1 | exact le_trans' hdesc hle.1

/-! ### C30: stopping at the target -/

/-- Once the best recorded solution reaches the target, nothing more is examined, searched or recorded,
and the run returns a set whose best objective is at most the target (unless writing the final
checkpoint fails). -/
theorem C30_target_stops {env : Env n} {o : Opt n} {loaded : Option (Except CkErr (Ckpt n))}
    (hb : Built o) (hf : Fresh o loaded) (hs : Sequential env o 0) {pre post : List (Event n)}
    (h : (run env o loaded).final.trace = pre ++ post) (ht : TargetMet o pre) :
    (∀ e ∈ post, ∀ it p v ok r s w, e ≠ .examine it p v ok ∧ e ≠ .search (some it) p r ∧
      e ≠ .processed s w) ∧
    ((∃ set b t, (run env o loaded).result = .ok set ∧ bestSolution set = some b ∧
      o.target = some t ∧ F64.le b.objective t = true ∧
      (o.exclude = true → withinBounds o.problem b.point = true)) ∨
     ∃ e, (run env o loaded).result = .error (.checkpoint e)) := by
  obtain ⟨h1, h2, h3⟩ := freshPost hb hf hs
  have hne : (started env o).solset ≠ some [] := by
    show o.solset ≠ some []
    rw [hb.unused.solset]; simp
  have hsame : ∀ a b, procs a = procs b → TargetMet o a → TargetMet o b := by
    intro a b hab hm
    unfold TargetMet at hm ⊢
    rw [← hab]; exact hm
  have hex : ∀ q it p v ok l, (run env o loaded).final.trace = q ++ .examine it p v ok :: l →
      ¬ TargetMet o q := by
    intro q it p v ok l hq
    rw [h2] at hq
    exact (h3.inv.just _ _ _ hq).2.2.1
  have hse : ∀ q it p r l, (run env o loaded).final.trace = q ++ .search (some it) p r :: l →
      ¬ TargetMet o q := by
    intro q it p r l hq hm
    have hq' := hq
    rw [h2] at hq'
    obtain ⟨q', v, rfl⟩ := h3.inv.just _ _ _ hq'
    refine hex q' it p v true _ (hq.trans (List.append_assoc _ _ _)) (hsame _ _ ?_ hm)
    rw [procs_append]; exact List.append_nil _
  have hpr : ∀ q s w l, (run env o loaded).final.trace = q ++ .processed s w :: l →
      ¬ TargetMet o q := by
    intro q s w l hq hm
    have hq' := hq
    rw [h2] at hq'
    rcases h3.inv.just _ _ _ hq' with ⟨q', it, p, rfl⟩ | ⟨_, h0⟩
    · refine hse q' it p _ _ (hq.trans (List.append_assoc _ _ _)) (hsame _ _ ?_ hm)
      rw [procs_append]; exact List.append_nil _
    · obtain ⟨t, set, b, _, c2, _⟩ := hm
      rw [h0, hb.unused.solset] at c2
      cases c2
  have hall : ∀ k l, post = k ++ l → TargetMet o (pre ++ k) ∧
      ∀ e ∈ k, ∀ it p v ok r s w, e ≠ .examine it p v ok ∧ e ≠ .search (some it) p r ∧
        e ≠ .processed s w := by
    intro k
    induction k using List.reverseRecOn with
    | nil => intro l _; exact ⟨by rw [List.append_nil]; exact ht, by simp⟩
    | append_singleton k e ih =>
      intro l hl
      obtain ⟨a, b⟩ := ih ([e] ++ l) (by rw [hl, List.append_assoc])
      have htr : (run env o loaded).final.trace = (pre ++ k) ++ e :: l := by
        rw [h, hl]; simp
      have he : ∀ it p v ok r s w, e ≠ .examine it p v ok ∧ e ≠ .search (some it) p r ∧
          e ≠ .processed s w := by
        intro it p v ok r s w
        refine ⟨?_, ?_, ?_⟩ <;> rintro rfl
        · exact hex _ _ _ _ _ _ htr a
        · exact hse _ _ _ _ _ htr a
        · exact hpr _ _ _ _ htr a
      refine ⟨hsame _ _ ?_ a, ?_⟩
      · rw [← List.append_assoc, procs_append (pre ++ k) [e]]
        have : procs [e] = [] := by
          cases e with
          | processed s w => exact absurd rfl (he 0 s.point F64.zero true (.error .runFailed) s w).2.2
          | _ => rfl
        rw [this, List.append_nil]
      · intro x hx
        rcases List.mem_append.1 hx with hx | hx
        · exact b x hx
        · rw [List.mem_singleton] at hx; subst hx; exact he
  obtain ⟨hfin, hno⟩ := hall post [] (by simp)
  refine ⟨hno, ?_⟩
  rw [← h, h2] at hfin
  have hreach : (Act.body env false ⟨started env o, 0, 0, []⟩).1.opt.targetReached = true :=
    (targetReached_iff (h3.inv.hist hne)).2 hfin
  have hss := (h3.inv.hist hne).solset
  rw [h1]
  generalize Act.body env false ⟨started env o, 0, 0, []⟩ = r at *
  obtain ⟨m, out⟩ := r
  obtain ⟨t, set, b, c1, c2, c3, c4, c5⟩ := hfin
  have hset : m.opt.solset = some set := hss.trans c2
  cases out with
  | fail e =>
    right
    rcases h3.fail (started_target hb) e rfl with hc | ⟨c, rfl⟩
    · rw [show m.opt.targetReached = true from hreach] at hc; cases hc
    · exact ⟨c, rfl⟩
  | _ =>
    left
    refine ⟨set, b, t, ?_, c3, c1, c4, c5⟩
    unfold finish
    dsimp only
    rw [hset]

/-- Without a target (and without timeout) a successful run examines all its iterations. -/
theorem C30_no_target_examines_all {env : Env n} {o : Opt n}
    {loaded : Option (Except CkErr (Ckpt n))} (hv : env.rt.Valid) (hb : Built o)
    (hf : Fresh o loaded) (hs : Sequential env o 0) {set : List (Sol n)}
    (hok : (run env o loaded).result = .ok set) (htime : o.maxTime = none) (htarget : o.target = none) :
    ∃ sc, Act.scatter env o = .ok sc ∧ (examined (run env o loaded).final.trace).length =
      min o.params.iterations sc.ref.length := by
  obtain ⟨sc, h1, h2, _⟩ := C26_count hv hb hf hs hok (fun t k h => by rw [htime] at h; cases h)
    (fun ⟨t, _, _, h, _⟩ => by rw [htarget] at h; cases h)
  exact ⟨sc, h1, h2⟩

/-! ### Examples and counterexamples -/

open Witness

/-- The demo run is fresh and sequential, succeeds without time limit or target, and examines four
points. -/
example : Built demoSeq ∧ Fresh demoSeq none ∧ Sequential (env stay) demoSeq 0 ∧
    demoSeq.maxTime = none ∧ demoSeq.target = none ∧
    (∃ set, (run (env stay) demoSeq none).result = .ok set) ∧
    (examined (run (env stay) demoSeq none).final.trace).length = 4 ∧
    (passed (run (env stay) demoSeq none).final.trace).length = 1 :=
  ⟨demoSeq_built, Or.inl rfl, Or.inl rfl, by decide +kernel, by decide +kernel,
    succeeds_iff (by decide +kernel), by decide +kernel, by decide +kernel⟩

/-- With target 1 the demo stops after its first search; the trace contains a prefix meeting it. -/
example : TargetMet (demoSeq.setTarget (num 1))
    (run (env stay) (demoSeq.setTarget (num 1)) none).final.trace ∧
    (examined (run (env stay) (demoSeq.setTarget (num 1)) none).final.trace) = [] := by
  refine ⟨?_, by decide +kernel⟩
  exact ⟨num 1, [⟨pt (num 1), num 1⟩], ⟨pt (num 1), num 1⟩, rfl, by decide +kernel, by decide +kernel,
    by decide +kernel, fun _ => by decide +kernel⟩

/-- C28 is violated: in a fresh run some examined point is compared with a value that is not its
objective. -/
theorem C28_violated : Built demoSeq ∧ Sequential (env stay) demoSeq 0 ∧
    ∃ it p v ok, Event.examine it p v ok ∈ (run (env stay) demoSeq none).final.trace ∧
      demoSeq.problem.objective p ≠ .ok v := by
  refine ⟨demoSeq_built, Or.inl rfl, ?_⟩
  have h : ((run (env stay) demoSeq none).final.trace.any fun e => match e with
      | .examine _ p v _ => decide (p 0 ≠ v)
      | _ => false) = true := by decide +kernel
  rw [List.any_eq_true] at h
  obtain ⟨e, hm, he⟩ := h
  cases e with
  | examine it p v ok =>
    refine ⟨it, p, v, ok, hm, ?_⟩
    rw [demoSeq_problem]
    intro hc
    have : p 0 = v := by
      have : lin.objective p = .ok (p 0) := rfl
      rw [this] at hc
      exact Except.ok.inj hc
    simp [this] at he
  | _ => cases he

/-- Parameters with a wait cycle of one and threshold factor one. -/
def eager : Params := { params 4 6 0 with waitCycle := 1, thresholdFactor := num 1 }

theorem eager_ok : (Opt.new lin eager).toOption.isSome = true := by decide +kernel

/-- Sequential optimizer with these parameters, excluding solutions outside the bounds. -/
def eagerOpt : Opt 1 := ((mk lin eager eager_ok).setParallel false).setExclude true

/-- Local search that descends from 1 to 1/2 (outside the bounds) and stays elsewhere. -/
def slide (_ : SolverType) (_ : SolverConfig) (p : Pt 1) : Except LErr (Sol 1 × Nat) :=
  if p 0 = num 1 then .ok (⟨pt (F64.lit 1 2), F64.lit 1 2⟩, 1) else .ok (⟨p, p 0⟩, 1)

/-- All samples at 1. -/
def eagerEnv : Env 1 := { env slide with rt := rtWith (fun _ _ => num 1) (fun _ _ => num 0) }

/-- Does some stage-2 search raise the threshold although the local search does not worsen its starting
point? -/
def raises (tr : List (Event 1)) : Bool :=
  (List.range tr.length).any fun k =>
    match tr.drop k with
    | .examine _ p _ true :: .search _ _ (.ok s) :: .processed s' w :: _ =>
      F64.le s.objective (p 0) && decide (s = s') &&
      F64.lt (thrAfter F64.inf (tr.take k)) (thrAfter F64.inf (tr.take (k + 3)))
    | _ => false

/-- C29 is violated: a local search that does not worsen its starting point raises the threshold,
because the merit value belongs to another point. -/
theorem C29_violated : Built eagerOpt ∧ Sequential eagerEnv eagerOpt 0 ∧ eagerEnv.rt.Valid ∧
    raises (run eagerEnv eagerOpt none).final.trace = true ∧
    succeeds (run eagerEnv eagerOpt none) = true := by
  refine ⟨Built.exclude true (Built.parallel false (mk_built eager_ok)), Or.inl rfl,
    rtWith_valid _ _, ?_, ?_⟩ <;> decide +kernel

end GS.Props
