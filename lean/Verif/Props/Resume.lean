/- C46, C48, C50, C51: restoring a checkpoint, resuming, resuming with other parameters. -/
import Verif.Props.Codec
import Verif.Props.Diversify
import Verif.Props.Stage2

namespace GS.Props
open GS F64 GS.Witness
variable {n : Nat}

/-! ### C46 -/

/-- Everything a checkpoint is documented to carry agrees in two optimizers. -/
structure Carried (a b : Opt n) : Prop where
  params : b.params = a.params
  threshold : b.merit.threshold = a.merit.threshold
  solutions : b.solset = a.solset
  reference : b.curRef = a.curRef
  iteration : b.curIter = a.curIter
  unchanged : b.unchanged = a.unchanged
  seed : b.curSeed = a.curSeed
  target : b.target = a.target
  exclude : b.exclude = a.exclude
  batch : b.batch = a.batch
  parallel : b.par = a.par
  absTol : b.absTol = a.absTol
  relTol : b.relTol = a.relTol
  filter : b.dist.solutions = a.dist.solutions

/-- C46: restoring a checkpoint of `o` into any optimizer reproduces the state of `o`.  `o` has a
reference set, as it has from the end of stage 1 on; every checkpoint is written later. -/
theorem C46_restore (o o' : Opt n) (st : F64 × String) (ref : List (Pt n)) (h : o.curRef = some ref) :
    Carried o (o'.restore (o.createCkpt st)) := by
  constructor <;> try rfl
  show some (o.curRef.getD []) = o.curRef
  rw [h]; rfl

/-- Settings a checkpoint does not carry. -/
structure SameSetup (a b : Opt n) : Prop where
  problem : b.problem = a.problem
  filter : b.dist.params = a.dist.params
  solver : b.lsType = a.lsType
  config : b.lsConfig = a.lsConfig
  maxTime : b.maxTime = a.maxTime
  ckpt : b.ckpt = a.ckpt
  custom : b.custom = a.custom

/-- C46, whole optimizer: if the two optimizers were set up alike, restoring gives exactly the saved
optimizer, apart from the observer, which belongs to the new process. -/
theorem C46_same_optimizer (o o' : Opt n) (st : F64 × String) (ref : List (Pt n))
    (h : o.curRef = some ref) (hs : SameSetup o o') :
    o'.restore (o.createCkpt st) = { o with obs := o'.obs } := by
  obtain ⟨h1, h2, h3, h4, h5, h6, h7⟩ := hs
  obtain ⟨p, q, ⟨t⟩, ⟨d1, d2⟩, l1, l2, s, mt, b, pr, tg, ex, ck, ci, cr, u, cs, ob, cu, a, r⟩ := o
  obtain ⟨p', q', ⟨t'⟩, ⟨d1', d2'⟩, l1', l2', s', mt', b', pr', tg', ex', ck', ci', cr', u', cs', ob',
    cu', a', r'⟩ := o'
  dsimp only at *
  subst h1 h2 h3 h4 h5 h6 h7 h
  rfl

/-- C46 through the file: writing the checkpoint, reading it in another process and restoring. -/
theorem C46_through_file (a p : Bool) (o o' : Opt n) (st : F64 × String) (ref : List (Pt n))
    (h : o.curRef = some ref) (hs : SameSetup o o')
    (hc : CkptOk ⟨a, true, p⟩ (o.createCkpt st).toWire) :
    ((decodeFile ⟨a, true, p⟩ (Enc.ckpt ⟨a, true, p⟩ (o.createCkpt st).toWire)).bind
      (WCkpt.toCkpt n)).map o'.restore = some { o with obs := o'.obs } := by
  rw [C39_optimizer a p _ hc, Option.map_some, C46_same_optimizer o o' st ref h hs]

/-- Limit of C46: the factor of the distance filter, the local solver of the sequential code, the time
limit and the elapsed time are those of the new optimizer, whatever the checkpoint says. -/
theorem C46_not_carried (o' : Opt n) (c : Ckpt n) :
    (o'.restore c).dist.params = o'.dist.params ∧ (o'.restore c).lsType = o'.lsType ∧
      (o'.restore c).lsConfig = o'.lsConfig ∧ (o'.restore c).maxTime = o'.maxTime :=
  ⟨rfl, rfl, rfl, rfl⟩

/-- An optimizer in the middle of a run. -/
def midRun : Opt 1 :=
  { demoSeq with
    solset := some [⟨pt F64.one, F64.one⟩]
    curRef := some [pt F64.one, pt F64.two]
    curIter := 1
    curSeed := 1
    merit := ⟨F64.one⟩
    dist := demoSeq.dist.add ⟨pt F64.one, F64.one⟩ }

example : Carried midRun (demo.restore (midRun.createCkpt (F64.zero, "t"))) :=
  C46_restore _ _ _ [pt F64.one, pt F64.two] rfl

theorem midRun_setup (o : Opt 1) (set : Option (List (Sol 1))) (ref : Option (List (Pt 1))) (i j : Nat)
    (t : MeritFilter) (s : Sol 1) : SameSetup
      { o.setParallel false with
        solset := set
        curRef := ref
        curIter := i
        curSeed := j
        merit := t
        dist := (o.setParallel false).dist.add s } o := ⟨rfl, rfl, rfl, rfl, rfl, rfl, rfl⟩

example : SameSetup midRun demo := midRun_setup demo _ _ _ _ _ _

/-! ### C48 -/

theorem head_fold {c : SetCfg n} (ha : F64.le F64.zero c.absTol = true) (hist : List (Sol n))
    {hd : Sol n} {tl : List (Sol n)} :
    ∃ hd' tl', setFold c (some (hd :: tl)) hist = some (hd' :: tl') ∧
      (hd' = hd ∨ F64.lt hd'.objective hd.objective = true) := by
  induction hist using List.reverseRecOn with
  | nil => exact ⟨hd, tl, rfl, Or.inl rfl⟩
  | append_singleton l s ih =>
    obtain ⟨hd1, tl1, e, ih⟩ := ih
    rw [setFold_snoc, e]
    obtain ⟨hd2, tl2, e2⟩ : ∃ a b, newSet (classify c (some (hd1 :: tl1)) s) (some (hd1 :: tl1)) s =
        some (a :: b) := by
      cases classify c (some (hd1 :: tl1)) s <;> simp [newSet]
    refine ⟨hd2, tl2, e2, ?_⟩
    rcases head_step ha rfl e2 rfl with k | k
    · rw [k.1]; exact ih
    · rw [k.2.1]
      rcases ih with ih | ih
      · rw [← ih]; exact Or.inr k.2.2
      · exact Or.inr (lt_trans' k.2.2 ih)

theorem startOpt_resumes {env : Env n} {o : Opt n} {loaded : Option (Except CkErr (Ckpt n))} {c : Ckpt n}
    (hr : Resumes o loaded c) : startOpt env o loaded = .ok ((started env o).restore c, true) := by
  obtain ⟨rfl, cfg, hc, ha⟩ := hr
  show (started env o).tryResume (some (.ok c)) = _
  unfold Opt.tryResume
  rw [show (started env o).ckpt = o.ckpt from rfl, hc]
  dsimp only
  rw [ha]; rfl

theorem resumed_hist {env : Env n} {o : Opt n} {loaded : Option (Except CkErr (Ckpt n))} {c : Ckpt n}
    (hr : Resumes o loaded c) (hne : c.solutionSet ≠ some []) :
    HistInv ((started env o).restore c) (run env o loaded).final := by
  have hs := startOpt_resumes (env := env) hr
  exact histInv (o := (started env o).restore c) hne (run_reach env o _ hs)

/-- C48: whatever a resumed run does, successful or not, sequential or parallel, its first solution is
the checkpoint's or has a strictly smaller objective. -/
theorem C48_first_solution {env : Env n} {o : Opt n} {loaded : Option (Except CkErr (Ckpt n))}
    {c : Ckpt n} (hr : Resumes o loaded c) (ha : F64.le F64.zero c.absTol = true)
    {hd : Sol n} {tl : List (Sol n)} (hset : c.solutionSet = some (hd :: tl)) :
    (∃ hd' tl', (run env o loaded).final.opt.solset = some (hd' :: tl') ∧
      (hd' = hd ∨ F64.lt hd'.objective hd.objective = true)) ∧
    ∀ set, (run env o loaded).result = .ok set →
      ∃ hd' tl', set = hd' :: tl' ∧ (hd' = hd ∨ F64.lt hd'.objective hd.objective = true) := by
  have hi := resumed_hist (env := env) hr (by rw [hset]; simp)
  have h1 : ∃ hd' tl', (run env o loaded).final.opt.solset = some (hd' :: tl') ∧
      (hd' = hd ∨ F64.lt hd'.objective hd.objective = true) := by
    rw [hi.solset, show ((started env o).restore c).solset = some (hd :: tl) from hset]
    exact head_fold ha _
  refine ⟨h1, fun set hok => ?_⟩
  obtain ⟨hd', tl', e, k⟩ := h1
  rw [(run_ok hok).1] at e
  injection e with e
  exact ⟨hd', tl', e, k⟩

/-- C48: every solution recorded in the checkpoint stays in the distance filter, in front of those found
after resuming. -/
theorem C48_filter {env : Env n} {o : Opt n} {loaded : Option (Except CkErr (Ckpt n))}
    {c : Ckpt n} (hr : Resumes o loaded c) (hne : c.solutionSet ≠ some []) :
    (run env o loaded).final.opt.dist.solutions =
      c.distanceFilterSolutions ++ procs (run env o loaded).final.trace :=
  (resumed_hist hr hne).dist

/-- A checkpointing optimizer that resumes. -/
def resuming : Opt 1 := demoSeq.withCheckpointing ⟨"run", 1, true, true⟩

theorem resuming_resumes (c : Ckpt 1) : Resumes resuming (some (.ok c)) c :=
  ⟨rfl, ⟨"run", 1, true, true⟩, rfl, rfl⟩

example : Resumes resuming (some (.ok (midRun.createCkpt (F64.zero, "t"))))
    (midRun.createCkpt (F64.zero, "t")) ∧
    F64.le F64.zero (midRun.createCkpt (F64.zero, "t")).absTol = true ∧
    (midRun.createCkpt (F64.zero, "t")).solutionSet = some [⟨pt F64.one, F64.one⟩] :=
  ⟨resuming_resumes _, by decide +kernel, rfl⟩

/-! ### C50 -/

/-- Part of C50: after `resume_with_modified_params` reports success the optimizer holds the
checkpoint's state with the new parameters.  The full property (the following `run` continues from
there) is false: `C50_auto_resume_violated` and `C50_no_auto_resume_violated`. -/
theorem C50_state_partial (env : Env n) (o o' : Opt n) (loaded : Option (Except CkErr (Ckpt n)))
    (new : Params) (h : o.resumeWith env loaded new = .ok (o', true)) :
    ∃ c, loaded = some (.ok c) ∧ o'.params = new ∧ o'.curIter = c.currentIteration ∧
      o'.merit.threshold = c.meritThreshold ∧ o'.solset = c.solutionSet ∧
      o'.unchanged = c.unchangedCycles ∧ o'.curSeed = c.currentSeed ∧
      o'.dist.solutions = c.distanceFilterSolutions ∧
      ∃ ref, o'.curRef = some ref ∧ c.referenceSet <+: ref := by
  unfold Opt.resumeWith at h
  split at h
  · cases h
  · rename_i c hl
    split at h
    · split at h
      · cases h
      · rename_i ref hx
        cases h
        refine ⟨c, rfl, rfl, rfl, rfl, rfl, rfl, rfl, rfl, ref, rfl, ?_⟩
        unfold Opt.expand at hx
        split at hx
        · cases hx; exact List.prefix_rfl
        · split at hx
          · cases hx
          · split at hx
            · cases hx
            · split at hx
              · cases hx
              · rename_i r hd
                cases hx
                obtain ⟨cand, _, hg⟩ := C21_greedy_partial _ _ _ r.1 _ r.2 hd
                obtain ⟨added, _, e, _⟩ := C21_each_once hg
                exact ⟨added, e.symm⟩
    · cases h
      exact ⟨c, rfl, rfl, rfl, rfl, rfl, rfl, rfl, rfl, _, rfl, List.prefix_rfl⟩
  · cases h

theorem restore_restore (o : Opt n) (c d : Ckpt n) : (o.restore d).restore c = o.restore c := rfl

/-- What `resume_with_modified_params` does to the optimizer. -/
theorem resumeWith_eq {env : Env n} {o o' : Opt n} {loaded : Option (Except CkErr (Ckpt n))}
    {new : Params} (h : o.resumeWith env loaded new = .ok (o', true)) :
    (∃ cfg, o.ckpt = some cfg) ∧ ∃ d, o' = o.restore d := by
  unfold Opt.resumeWith at h
  split at h
  · cases h
  · rename_i cfg c hl
    refine ⟨⟨cfg, by assumption⟩, ?_⟩
    split at h
    · split at h
      · cases h
      · cases h; exact ⟨_, rfl⟩
    · cases h; exact ⟨_, rfl⟩
  · cases h

/-- C50 fails whenever `auto_resume` is on (the default): `run` reads the checkpoint again, so
modifying the parameters has no effect at all. -/
theorem C50_auto_resume_violated (env env' : Env n) (o o' : Opt n) (c : Ckpt n) (new : Params)
    (cfg : CkptConfig) (hc : o.ckpt = some cfg) (ha : cfg.autoResume = true)
    (h : o.resumeWith env (some (.ok c)) new = .ok (o', true)) :
    run env' o' (some (.ok c)) = run env' o (some (.ok c)) ∧
      (run env' o' (some (.ok c))).final.opt.params = c.params := by
  obtain ⟨_, d, rfl⟩ := resumeWith_eq h
  have h1 : Resumes o (some (.ok c)) c := ⟨rfl, cfg, hc, ha⟩
  have h2 : Resumes (o.restore d) (some (.ok c)) c := ⟨rfl, cfg, hc, ha⟩
  have e : run env' (o.restore d) (some (.ok c)) = run env' o (some (.ok c)) := by
    rw [run_resumes env' o _ h1, run_resumes env' _ _ h2]
    rfl
  refine ⟨e, ?_⟩
  have hs := startOpt_resumes (env := env') h2
  exact (run_reach env' _ _ hs).cfg.params

/-- C50 fails whenever `auto_resume` is off: `run` starts with scatter search again instead of
continuing. -/
theorem C50_no_auto_resume_violated (env env' : Env n) (o o' : Opt n) (c : Ckpt n) (new : Params)
    (cfg : CkptConfig) (hc : o.ckpt = some cfg) (ha : cfg.autoResume = false)
    (h : o.resumeWith env (some (.ok c)) new = .ok (o', true)) :
    (∃ e, Act.scatter env' o' = .error e ∧ (run env' o' (some (.ok c))).result = .error e) ∨
      ∃ k post, (run env' o' (some (.ok c))).final.trace = .scatter k :: post := by
  obtain ⟨_, d, rfl⟩ := resumeWith_eq h
  have hf : Fresh (o.restore d) (some (.ok c)) := Or.inr fun cfg' hc' => by
    rw [show (o.restore d).ckpt = o.ckpt from rfl, hc] at hc'
    cases hc'; exact ha
  rw [run_fresh env' _ _ hf, finish_final]
  have hsc : Act.scatter env' (started env' (o.restore d)) = Act.scatter env' (o.restore d) := rfl
  unfold Act.body Act.stage1
  simp only [Bool.false_eq_true, if_false]
  rw [hsc]
  cases he : Act.scatter env' (o.restore d) with
  | error e => exact Or.inl ⟨e, rfl, rfl⟩
  | ok r =>
    right
    dsimp only
    have := (Steps.seq (env := env') (a := if (started env' (o.restore d)).tracks1 then
      Act.obsScatter env' r else Act.skip) (b := Act.obsScatterDone env' (r.ref.map Prod.fst)
      (r.ref.map Prod.snd) ;; Act.stage1Local env' r.best (r.ref.map Prod.fst) ;;
      ((fun m => ({ m with uc := 0 }, .cont)) ;;
      Act.stage2 env' false (r.ref.map Prod.fst) (some (r.ref.map Prod.snd))))
      (by split; exacts [Steps.obsScatter env' _, Steps.skip env'])
      (Steps.seq (Steps.obsScatterDone env' _ _) (Steps.seq (Steps.stage1Local env' _ _)
        (Steps.seq (fun m => Relation.ReflTransGen.single (Prim.uc m 0)) (Steps.stage2 env' _ _ _)))))
      ⟨started env' (o.restore d), 0, 0, [.scatter r.evals]⟩
    obtain ⟨t, ht⟩ := this.trace
    exact ⟨r.evals, t, ht⟩

/-- C50, settings: even on the optimizer returned by `resume_with_modified_params` a new distance factor,
local solver or solver configuration has no effect on the distance filter and on sequential local
searches. -/
theorem C50_filter_and_solver_violated (env : Env n) (o o' : Opt n)
    (loaded : Option (Except CkErr (Ckpt n))) (new : Params)
    (h : o.resumeWith env loaded new = .ok (o', true)) :
    o'.dist.params = o.dist.params ∧ o'.lsType = o.lsType ∧ o'.lsConfig = o.lsConfig := by
  obtain ⟨_, d, rfl⟩ := resumeWith_eq h
  exact ⟨rfl, rfl, rfl⟩

/-- The same optimizer without automatic resuming. -/
def manual : Opt 1 := demoSeq.withCheckpointing ⟨"run", 1, true, false⟩

/-- Did `resume_with_modified_params` report success? -/
def tookOver {m : Nat} (r : Except Err (Opt m × Bool)) : Bool := match r with
  | .ok (_, b) => b
  | .error _ => false

theorem tookOver_iff {r : Except Err (Opt n × Bool)} (h : tookOver r = true) :
    ∃ o', r = .ok (o', true) := by
  unfold tookOver at h
  split at h
  · subst h; exact ⟨_, rfl⟩
  · cases h

/-- A checkpoint with six reference points. -/
def sixPoints : Ckpt 1 :=
  { midRun.createCkpt (F64.zero, "t") with
    referenceSet := [pt (num 1), pt (num 2), pt (num 3), pt (num 4), pt (num 2), pt (num 3)] }

theorem enlarge (b : Bool) : tookOver (Opt.resumeWith (env stay)
    (demoSeq.withCheckpointing ⟨"run", 1, true, b⟩) (some (.ok sixPoints)) (params 8 9 0)) = true := by
  cases b <;> decide +kernel

example : ∃ o', resuming.resumeWith (env stay) (some (.ok sixPoints)) (params 8 9 0) = .ok (o', true) :=
  tookOver_iff (enlarge true)

example : ∃ o', manual.resumeWith (env stay) (some (.ok sixPoints)) (params 8 9 0) = .ok (o', true) :=
  tookOver_iff (enlarge false)

/-! ### C51 -/

/-- Part of C51.  With a larger population the saved points stay in front, in order; the added points are
inside the bounds and satisfy the constraints; the set has exactly the new size, provided it was not
larger already.  The full property has no such proviso, see `C51_size_violated`. -/
theorem C51_expand_partial (env : Env n) (hv : env.rt.Valid) (o o' : Opt n)
    (c : Ckpt n) (new : Params) (hlt : c.params.populationSize < new.populationSize)
    (h : o.resumeWith env (some (.ok c)) new = .ok (o', true)) :
    ∃ added, o'.curRef = some (c.referenceSet ++ added) ∧
      (c.referenceSet.length ≤ new.populationSize →
        (c.referenceSet ++ added).length = new.populationSize) ∧
      (new.populationSize ≤ c.referenceSet.length → added = []) ∧
      ∀ x ∈ added, inBounds o.problem x ∧ satisfies o.problem x := by
  unfold Opt.resumeWith at h
  split at h
  · cases h
  · rename_i cfg c' _ hl
    cases hl
    rw [if_pos hlt] at h
    split at h
    · cases h
    · rename_i ref hx
      cases h
      unfold Opt.expand at hx
      rw [if_neg (by omega)] at hx
      split at hx
      · cases hx
      · split at hx
        · cases hx
        · rename_i sd hsd sc hsc
          split at hx
          · cases hx
          · rename_i r hd
            cases hx
            have hsc' : sc.problem = o.problem ∧ sc.params.populationSize = new.populationSize := by
              unfold Scatter.new at hsc
              split at hsc
              · cases hsc
              · cases hsc; exact ⟨rfl, rfl⟩
            obtain ⟨cand, hcand, hg⟩ := C21_greedy_partial _ _ _ r.1 _ r.2 hd
            obtain ⟨added, rest, e, hlen, hperm⟩ := C21_each_once hg
            have hlen' : added.length = new.populationSize - c.referenceSet.length := by
              rw [hlen, ← hsc'.2]; rfl
            refine ⟨added, congrArg some e, ?_, ?_, ?_⟩
            · intro hle; rw [List.length_append, hlen']; omega
            · intro hle; exact List.length_eq_zero_iff.1 (by omega)
            · intro x hx
              obtain ⟨k, D, hD, _, hcd, _⟩ := Scatter.candidates_ok hcand
              have hx' : x ∈ cand := hperm.mem_iff.1 (List.mem_append_left _ hx)
              have hp : (sc.setParallel o.par).problem = o.problem := hsc'.1
              rw [hp] at hcd
              rw [hcd] at hx'
              have hxD : x ∈ D ∧ satisfies o.problem x := by
                split at hx'
                · rename_i hem; exact ⟨hx', satisfies_of_empty hem x⟩
                · exact ⟨(List.mem_filter.1 hx').1, isFeasible_iff.1 (List.mem_filter.1 hx').2⟩
              refine ⟨?_, hxD.2⟩
              obtain ⟨sd', hsd'⟩ := Scatter.samples_mem hD hxD.1
              rw [hp] at hsd'
              intro i
              exact hv.uniformIncl_mem _ _ _ _ _ (Scatter.sample_some hsd' i)
  · cases h

/-- C51: a population that is not larger leaves the saved points alone. -/
theorem C51_not_larger (env : Env n) (o o' : Opt n) (c : Ckpt n) (new : Params)
    (hle : new.populationSize ≤ c.params.populationSize)
    (h : o.resumeWith env (some (.ok c)) new = .ok (o', true)) :
    o'.curRef = some c.referenceSet := by
  unfold Opt.resumeWith at h
  split at h
  · cases h
  · rename_i cfg c' _ hl
    cases hl
    rw [if_neg (by omega)] at h
    cases h; rfl
  · cases h

example : (sixPoints.params.populationSize < (params 8 9 0).populationSize ∧
    sixPoints.referenceSet.length ≤ (params 8 9 0).populationSize) ∧
    ∃ o', resuming.resumeWith (env stay) (some (.ok sixPoints)) (params 8 9 0) = .ok (o', true) :=
  ⟨by decide +kernel, tookOver_iff (enlarge true)⟩

/-- Size of the reference set after a successful call. -/
def refSize (r : Except Err (Opt 1 × Bool)) : Option Nat := match r with
  | .ok (o, true) => o.curRef.map List.length
  | _ => none

/-- The first checkpoint written by a run. -/
def firstSaved (r : RunResult 1) : Option (Ckpt 1) := r.final.trace.findSome? fun e => match e with
  | .saved _ c => some c
  | _ => none

theorem firstSaved_mem {r : RunResult 1} {c : Ckpt 1} (h : firstSaved r = some c) :
    ∃ it, Event.saved it c ∈ r.final.trace := by
  unfold firstSaved at h
  obtain ⟨e, he, hc⟩ := List.exists_of_findSome?_eq_some h
  split at hc
  · cases hc; exact ⟨_, he⟩
  · cases hc

theorem both {α : Type} {x : Option α} {p q : α → Bool}
    (h : (x.map fun c => p c && q c) = some true) : ∃ c, x = some c ∧ p c = true ∧ q c = true := by
  cases x with
  | none => cases h
  | some c =>
    injection h with h
    rw [Bool.and_eq_true] at h
    exact ⟨c, rfl, h.1, h.2⟩

theorem seeded_ok : (resuming.withPoints
    [[num 1], [num 2], [num 3], [num 4], [num 2]]).toOption.isSome = true := by decide +kernel

/-- An optimizer with population six and five custom points. -/
def seeded : Opt 1 := okOf _ seeded_ok

theorem seeded_built : Built seeded :=
  .points _ (.checkpointing _ demoSeq_built) (okOf_eq _ seeded_ok)

/-- C51 fails if the saved reference set is larger than the new population, as it can be when custom
points were given (`C17_size`): here eight points for a population of seven. -/
theorem C51_size_violated : ∃ (env : Env 1) (o : Opt 1) (c : Ckpt 1) (it : Nat) (new : Params),
    Built o ∧ Event.saved it c ∈ (run env o none).final.trace ∧
    c.params.populationSize < new.populationSize ∧
    refSize (o.resumeWith env (some (.ok c)) new) = some (new.populationSize + 1) := by
  obtain ⟨c, hc, h1, h2⟩ := both (x := firstSaved (run (env stay) seeded none))
    (p := fun c => decide (c.params.populationSize < (params 7 7 0).populationSize))
    (q := fun c => decide (refSize (seeded.resumeWith (env stay) (some (.ok c)) (params 7 7 0)) =
      some ((params 7 7 0).populationSize + 1))) (by decide +kernel)
  obtain ⟨it, hit⟩ := firstSaved_mem hc
  exact ⟨env stay, seeded, c, it, params 7 7 0, seeded_built, hit, of_decide_eq_true h1,
    of_decide_eq_true h2⟩

end GS.Props
