/- Optimizers obtained through the public API, and the shape of fresh and resumed runs. -/
import Verif.Lemmas.SeqRun

namespace GS
open F64
variable {n : Nat}

/-- Optimizers built with `OQNLP::new` and the configuration methods. -/
inductive Built : Opt n → Prop
  | new {p : Problem n} {q : Params} {o : Opt n} : Opt.new p q = .ok o → Built o
  | observer {o : Opt n} (b : Obs n) : Built o → Built (o.addObserver b)
  | points {o o' : Opt n} (rows : List (List F64)) : Built o → o.withPoints rows = .ok o' → Built o'
  | maxTime {o : Opt n} (t : F64) : Built o → Built (o.setMaxTime t)
  | batch {o : Opt n} (b : Nat) : Built o → Built (o.setBatch b)
  | parallel {o : Opt n} (b : Bool) : Built o → Built (o.setParallel b)
  | target {o : Opt n} (t : F64) : Built o → Built (o.setTarget t)
  | exclude {o : Opt n} (b : Bool) : Built o → Built (o.setExclude b)
  | tolerance {o : Opt n} (a r : F64) : Built o → Built (o.withTolerance a r)
  | checkpointing {o : Opt n} (c : CkptConfig) : Built o → Built (o.withCheckpointing c)

/-- State of an optimizer that has not run yet. -/
structure Unused (o : Opt n) : Prop where
  solset : o.solset = none
  sols : o.dist.solutions = []
  dparams : o.dist.params = ⟨o.params.distanceFactor, o.params.waitCycle, o.params.thresholdFactor⟩
  merit : o.merit.threshold = F64.inf
  curIter : o.curIter = 0
  curRef : o.curRef = none
  unchanged : o.unchanged = 0
  curSeed : o.curSeed = o.params.seed
  lsType : o.lsType = o.params.solverType
  lsConfig : o.lsConfig = o.params.solverConfig
  pop : 4 ≤ o.params.populationSize
  iters : o.params.iterations ≤ o.params.populationSize

theorem Built.unused {o : Opt n} (h : Built o) : Unused o := by
  induction h with
  | new h =>
    unfold Opt.new at h
    split at h
    · cases h
    · split at h
      · cases h
      · split at h
        · cases h
        · split at h
          · cases h
          · rename_i h1 h2 _ _ df hdf
            unfold DistanceFilter.new at hdf
            split at hdf
            · cases hdf
            · cases hdf
              cases h
              exact ⟨rfl, rfl, rfl, rfl, rfl, rfl, rfl, rfl, rfl, rfl, by dsimp only; omega,
                by dsimp only; omega⟩
  | points rows _ h ih =>
    unfold Opt.withPoints at h
    split at h
    · cases h
    · cases h
      exact ⟨ih.1, ih.2, ih.3, ih.4, ih.5, ih.6, ih.7, ih.8, ih.9, ih.10, ih.11, ih.12⟩
  | _ => rename_i ih; exact ⟨ih.1, ih.2, ih.3, ih.4, ih.5, ih.6, ih.7, ih.8, ih.9, ih.10, ih.11, ih.12⟩

/-- The run does not resume: no checkpoint is found, or automatic resuming is off. -/
def Fresh (o : Opt n) (loaded : Option (Except CkErr (Ckpt n))) : Prop :=
  loaded = none ∨ ∀ c, o.ckpt = some c → c.autoResume = false

/-- The run resumes from checkpoint `c`. -/
def Resumes (o : Opt n) (loaded : Option (Except CkErr (Ckpt n))) (c : Ckpt n) : Prop :=
  loaded = some (.ok c) ∧ ∃ cfg, o.ckpt = some cfg ∧ cfg.autoResume = true

/-- The optimizer after its observer's timers were started. -/
def started (env : Env n) (o : Opt n) : Opt n :=
  o.mapObs fun b => (b.startTimer (env.time 0)).upd1 (·.start (env.time 0))

/-- End of `run`: src/oqnlp.rs 1027-1030. -/
def finish (r : M n × Out) : RunResult n :=
  match r with
  | (m, .fail e) => ⟨m, .error e⟩
  | (m, _) =>
    match m.opt.solset with
    | some set => ⟨m, .ok set⟩
    | none => ⟨m, .error (.noFeasibleSolution 0)⟩

theorem finish_final (r : M n × Out) : (finish r).final = r.1 := by
  obtain ⟨m, o⟩ := r
  unfold finish
  cases o <;> dsimp only <;> cases m.opt.solset <;> rfl

theorem finish_ok {r : M n × Out} {set : List (Sol n)} (h : (finish r).result = .ok set) :
    r.1.opt.solset = some set ∧ ∀ e, r.2 ≠ .fail e := by
  obtain ⟨m, o⟩ := r
  unfold finish at h
  cases o with
  | fail e => cases h
  | cont =>
    dsimp only at h ⊢
    cases hs : m.opt.solset with
    | none => rw [hs] at h; cases h
    | some s => rw [hs] at h; cases h; exact ⟨rfl, fun e he => by cases he⟩
  | stop =>
    dsimp only at h ⊢
    cases hs : m.opt.solset with
    | none => rw [hs] at h; cases h
    | some s => rw [hs] at h; cases h; exact ⟨rfl, fun e he => by cases he⟩

theorem run_fresh (env : Env n) (o : Opt n) (loaded : Option (Except CkErr (Ckpt n)))
    (h : Fresh o loaded) :
    run env o loaded = finish (Act.body env false ⟨started env o, 0, 0, []⟩) := by
  unfold run
  have h1 : (Act.obsStart env ⟨o, 0, 0, []⟩).1 = (⟨started env o, 0, 0, []⟩ : M n) := rfl
  dsimp only
  rw [h1]
  have h2 : (started env o).tryResume loaded = .ok (started env o, false) := by
    unfold Opt.tryResume
    have hc : (started env o).ckpt = o.ckpt := rfl
    rw [hc]
    rcases h with rfl | h
    · cases o.ckpt with
      | none => rfl
      | some c => dsimp only; split <;> rfl
    · cases ho : o.ckpt with
      | none => rfl
      | some c => dsimp only; rw [h c ho]; rfl
  rw [h2]
  rfl

theorem run_resumes (env : Env n) (o : Opt n) (loaded : Option (Except CkErr (Ckpt n)))
    {c : Ckpt n} (h : Resumes o loaded c) :
    run env o loaded = finish (Act.body env true ⟨(started env o).restore c, 0, 0, []⟩) := by
  unfold run
  have h1 : (Act.obsStart env ⟨o, 0, 0, []⟩).1 = (⟨started env o, 0, 0, []⟩ : M n) := rfl
  dsimp only
  rw [h1]
  obtain ⟨rfl, cfg, hc, ha⟩ := h
  have h2 : (started env o).tryResume (some (.ok c)) = .ok ((started env o).restore c, true) := by
    unfold Opt.tryResume
    rw [show (started env o).ckpt = o.ckpt from rfl, hc]
    dsimp only
    rw [ha]; rfl
  rw [h2]
  rfl

/-- Stage 2 processes its points one at a time: not parallel, batches of size one, or the default batch
size with one thread or fewer than four iterations left. -/
def Sequential (env : Env n) (o : Opt n) (startIter : Nat) : Prop :=
  o.par = false ∨ o.batch = some 1 ∨
    (o.batch = none ∧ (o.params.iterations - startIter < 4 ∨ env.threads = 1))

theorem Sequential.eff {env : Env n} {o : Opt n} {st : Nat} (h : Sequential env o st) :
    o.effBatch env.threads st = 1 := by
  unfold Opt.effBatch
  rcases h with h | h | ⟨h, h2⟩
  · rw [h]; rfl
  · rw [h]; cases o.par <;> rfl
  · rw [h]
    cases o.par
    · rfl
    · dsimp only
      rcases h2 with h2 | h2 <;> simp [h2]

end GS
