/- Simulation between two runs: the second may lack the observer, have another batch size, another
thread schedule, another time limit or another overflow mode. -/
import Verif.Lemmas.Built
import Verif.Lemmas.Par
import Verif.Lemmas.Blame

namespace GS
variable {n : Nat}

/-- What the second run lacks or changes. -/
structure Er where
  noObs : Bool
  batch : Option Nat → Option Nat
  /-- how local solver errors are renamed -/
  lerr : LErr → LErr := id
  /-- how the time limit is changed -/
  time : Option F64 → Option F64 := id

variable (E : Er)

/-- The second run's local search result. -/
def Er.lres {α : Type} : Except LErr α → Except LErr α
  | .error e => .error (E.lerr e)
  | .ok a => .ok a

/-- The second run's error. -/
def Er.err : Err → Err
  | .localSolver e => .localSolver (E.lerr e)
  | e => e

/-- The second run's outcome. -/
def Er.out : Out → Out
  | .fail e => .fail (E.err e)
  | .cont => .cont
  | .stop => .stop

theorem Er.out_cont (x : Out) : E.out x = .cont ↔ x = .cont := by cases x <;> simp [Er.out]

@[simp] theorem Er.out_c : E.out .cont = .cont := rfl

/-- The second run's result. -/
def Er.res {α : Type} : Except Err α → Except Err α
  | .error e => .error (E.err e)
  | .ok a => .ok a

/-- The second run's optimizer. -/
def Er.opt (o : Opt n) : Opt n :=
  { o with obs := if E.noObs then none else o.obs, batch := E.batch o.batch, maxTime := E.time o.maxTime }

/-- The second run's checkpoint. -/
def Er.ckpt (c : Ckpt n) : Ckpt n := { c with batchIterations := E.batch c.batchIterations }

/-- The second run's event, if it has one. -/
def Er.event : Event n → Option (Event n)
  | .callback k b w => if E.noObs then none else some (.callback k b w)
  | .search it p r => some (.search it p (E.lres r))
  | .saved it c => some (.saved it (E.ckpt c))
  | .saveFailed it c => some (.saveFailed it (E.ckpt c))
  | e => some e

/-- The second run's state. -/
def Er.st (m : M n) : M n := ⟨E.opt m.opt, m.uc, m.saves, m.trace.filterMap E.event⟩

/-- The two environments agree on everything that should matter for a run with configuration `o`. -/
structure Agree (env env' : Env n) (o : Opt n) : Prop where
  rt : env'.rt = env.rt
  sched : env'.sched = env.sched
  solve : ∀ ty cfg p, env'.solve ty cfg p = E.lres (env.solve ty cfg p)
  late : ∀ k, Act.timedOut env' (E.opt o) k = Act.timedOut env o k
  stamp : env'.stamp = env.stamp
  io : env'.io = env.io
  obs : E.noObs = false → env'.cb = env.cb ∧ env'.time = env.time
  add : (∀ i, i ≤ o.params.iterations → Opt.iterSeed env' o.params.seed i =
    Opt.iterSeed env o.params.seed i) ∧
    Opt.shuffleSeed env' o.params.seed o.curIter = Opt.shuffleSeed env o.params.seed o.curIter
  eff : ∀ st, (E.opt o).effBatch env'.threads st = o.effBatch env.threads st
  freq : E.noObs = true → ∀ id k b, 0 < b.frequency → 0 < (env.cb id k b).frequency
  par : (∀ k, env'.evalOrder k = env.evalOrder k ∧ env'.solveOrder k = env.solveOrder k) ∨
    (Completes env o.params.iterations ∧ Completes env' o.params.iterations ∧
      ∀ p q x y, env.solve o.params.solverType o.params.solverConfig p = .error x →
        env.solve o.params.solverType o.params.solverConfig q = .error y → x = y)

/-- States the simulation speaks about. -/
structure Good (o : Opt n) (m : M n) : Prop where
  cfg : SameCfg o m.opt
  freq : E.noObs = true → ∀ b, m.opt.obs = some b → 0 < b.frequency

variable {E} {env env' : Env n} {o : Opt n}

variable (E o) in
/-- The second action does what the first does. -/
def Sim (a a' : Act n) : Prop :=
  ∀ m, Good E o m → a' (E.st m) = (E.st (a m).1, E.out (a m).2) ∧ Good E o (a m).1

theorem Sim.seq {a b a' b' : Act n} (ha : Sim E o a a') (hb : Sim E o b b') :
    Sim E o (a ;; b) (a' ;; b') := by
  intro m hm
  obtain ⟨h1, h2⟩ := ha m hm
  rw [Act.seq_def, Act.seq_def, h1]
  dsimp only
  by_cases hc : (a m).2 = .cont
  · rw [if_pos hc, if_pos (E.out_cont _ |>.2 hc)]
    exact hb _ h2
  · rw [if_neg hc, if_neg (fun h => hc ((E.out_cont _).1 h))]
    exact ⟨rfl, h2⟩

theorem Sim.skip : Sim E o Act.skip Act.skip := fun _ hm => ⟨rfl, hm⟩

theorem Sim.all {α : Type} (l : List α) (g g' : α → Act n) (h : ∀ x ∈ l, Sim E o (g x) (g' x)) :
    Sim E o (Act.all (l.map g)) (Act.all (l.map g')) := by
  induction l with
  | nil => exact Sim.skip
  | cons a l ih => exact (h a (by simp)).seq (ih fun x hx => h x (by simp [hx]))

theorem Er.opt_mapObs (o : Opt n) (g : Obs n → Obs n) : E.opt (o.mapObs g) = (E.opt o).mapObs g := by
  unfold Er.opt Opt.mapObs
  cases E.noObs <;> rfl

theorem Er.opt_mapObs_none (h : E.noObs = true) (o : Opt n) (g : Obs n → Obs n) :
    (E.opt o).mapObs g = E.opt o := by
  unfold Er.opt Opt.mapObs
  rw [h]; rfl

theorem Sim.modify {f f' : Opt n → Opt n} (h : ∀ x, f' (E.opt x) = E.opt (f x))
    (hc : ∀ x, SameCfg x (f x)) (ho : ∀ x, (f x).obs = x.obs) :
    Sim E o (Act.modify f) (Act.modify f') := by
  intro m hm
  refine ⟨?_, hm.cfg.trans (hc _), ?_⟩
  · unfold Act.modify Er.st
    dsimp only
    rw [h]; rfl
  · intro hn b hb
    exact hm.freq hn b ((ho _).symm.trans hb)

theorem Sim.obs {g g' : Opt n → Obs n → Obs n} (hf : ∀ x b, (g x b).frequency = b.frequency)
    (he : E.noObs = false → ∀ x, g' (E.opt x) = g x) :
    Sim E o (Act.modify fun x => x.mapObs (g x)) (Act.modify fun x => x.mapObs (g' x)) := by
  intro m hm
  refine ⟨?_, hm.cfg.trans (by constructor <;> rfl), ?_⟩
  · unfold Act.modify Er.st
    dsimp only
    rw [Er.opt_mapObs]
    cases hn : E.noObs with
    | false => rw [he hn]; rfl
    | true => rw [Er.opt_mapObs_none hn, Er.opt_mapObs_none hn]; rfl
  · intro hn b hb
    have hb : m.opt.obs.map (g m.opt) = some b := hb
    rw [Option.map_eq_some_iff] at hb
    obtain ⟨b0, h0, rfl⟩ := hb
    rw [hf]
    exact hm.freq hn b0 h0

theorem Obs.upd1_frequency (b : Obs n) (f : Stage1 n → Stage1 n) : (b.upd1 f).frequency = b.frequency := by
  unfold Obs.upd1 Obs.mod1; split <;> rfl
theorem Obs.upd2_frequency (b : Obs n) (f : Stage2 n → Stage2 n) : (b.upd2 f).frequency = b.frequency := by
  unfold Obs.upd2 Obs.mod2; split <;> rfl

theorem Sim.log {e : Event n} (h : E.event e = some e) : Sim E o (Act.log e) (Act.log e) := by
  intro m hm
  refine ⟨?_, hm.cfg, hm.freq⟩
  unfold Act.log Er.st
  dsimp only
  rw [List.filterMap_append]
  simp [h]

theorem Sim.beginIter (hA : Agree E env env' o) {i : Nat} (hi : i ≤ o.params.iterations) :
    Sim E o (Act.beginIter env i) (Act.beginIter env' i) := by
  intro m hm
  unfold Act.beginIter
  dsimp only
  have h1 : Opt.iterSeed env' (E.st m).opt.params.seed i =
      Opt.iterSeed env m.opt.params.seed i := by
    show Opt.iterSeed _ m.opt.params.seed i = _
    rw [hm.cfg.params]; exact hA.add.1 i hi
  rw [h1]
  split
  · exact ⟨rfl, hm.cfg.trans (by constructor <;> rfl), hm.freq⟩
  · exact ⟨rfl, hm.cfg.trans (by constructor <;> rfl), hm.freq⟩

theorem Sim.obsIter (i : Nat) : Sim E o (Act.obsIter i) (Act.obsIter i) := by
  intro m hm
  refine ⟨?_, hm.cfg.trans (by constructor <;> rfl), ?_⟩
  · unfold Act.obsIter Er.st
    dsimp only
    rw [Er.opt_mapObs]
    rfl
  · intro hn b hb
    have hb : m.opt.obs.map _ = some b := hb
    rw [Option.map_eq_some_iff] at hb
    obtain ⟨b0, h0, rfl⟩ := hb
    rw [Obs.upd2_frequency]
    exact hm.freq hn b0 h0

theorem Sim.obsEvals (k : Nat) : Sim E o (Act.obsEvals k) (Act.obsEvals k) :=
  Sim.obs (fun _ _ => Obs.upd2_frequency _ _) (fun _ _ => rfl)

theorem Sim.setThreshold (v : F64) : Sim E o (Act.setThreshold v) (Act.setThreshold v) :=
  Sim.modify (fun _ => rfl) (fun _ => by constructor <;> rfl) (fun _ => rfl)

theorem Er.process (o : Opt n) (s : Sol n) :
    (E.opt o).process s = (E.opt (o.process s).1, (o.process s).2) := by
  unfold Opt.process
  have h1 : classify (E.opt o).setCfg (E.opt o).solset s = classify o.setCfg o.solset s := rfl
  rw [h1]
  generalize classify o.setCfg o.solset s = v
  unfold Er.opt Opt.mapObs
  cases v <;> simp [Verdict.setsThreshold, Verdict.reports] <;> cases E.noObs <;> simp

theorem Opt.process_obs {o : Opt n} {s : Sol n} {b : Obs n} (h : (o.process s).1.obs = some b) :
    ∃ b0, o.obs = some b0 ∧ b.frequency = b0.frequency := by
  unfold Opt.process at h
  dsimp only at h
  split at h
  · exact ⟨b, h, rfl⟩
  · dsimp only [Opt.mapObs] at h
    split at h
    · rw [Option.map_eq_some_iff] at h
      obtain ⟨b0, h0, rfl⟩ := h
      refine ⟨b0, ?_, rfl⟩
      rw [← h0]; split <;> rfl
    · refine ⟨b, ?_, rfl⟩
      rw [← h]; split <;> rfl

theorem Sim.process {s : Sol n} {k k' : Verdict → Act n} (hk : ∀ v, Sim E o (k v) (k' v)) :
    Sim E o (Act.process s k) (Act.process s k') := by
  intro m hm
  unfold Act.process
  have h1 : (E.st m).opt.process s = (E.opt (m.opt.process s).1, (m.opt.process s).2) :=
    Er.process m.opt s
  dsimp only
  rw [h1]
  dsimp only
  have h2 : ({ (E.st m) with
        opt := E.opt (m.opt.process s).1
        trace := (E.st m).trace ++ [.processed s (m.opt.process s).2] } : M n) =
      E.st { m with opt := (m.opt.process s).1
                    trace := m.trace ++ [.processed s (m.opt.process s).2] } := by
    unfold Er.st
    dsimp only
    rw [List.filterMap_append]; rfl
  have h3 : Good E o ({ m with opt := (m.opt.process s).1
                               trace := m.trace ++ [.processed s (m.opt.process s).2] } : M n) := by
    refine ⟨hm.cfg.trans (Opt.process_cfg _ _), ?_⟩
    intro hn b hb
    obtain ⟨b0, h0, h4⟩ := Opt.process_obs hb
    rw [h4]; exact hm.freq hn b0 h0
  rw [h2]
  split
  · exact ⟨rfl, h3⟩
  · exact hk _ _ h3

theorem Sim.obsLocal (b : Bool) {e e' : Nat} (h : E.noObs = false → e' = e) :
    Sim E o (Act.obsLocal b e) (Act.obsLocal b e') := by
  unfold Act.obsLocal
  refine Sim.obs (fun _ _ => Obs.upd2_frequency _ _) ?_
  intro hn x
  rw [h hn]; rfl

theorem Er.targetReached (o : Opt n) : (E.opt o).targetReached = o.targetReached := rfl

theorem Sim.stopIfTarget : Sim E o (Act.stopIfTarget (n := n)) Act.stopIfTarget := by
  intro m hm
  unfold Act.stopIfTarget
  rw [show (E.st m).opt.targetReached = m.opt.targetReached from rfl]
  cases m.opt.targetReached <;> exact ⟨rfl, hm⟩

theorem Sim.reject (i : Nat) : Sim E o (Act.reject i) (Act.reject i) := by
  intro m hm
  unfold Act.reject
  have h1 : ((E.st m).opt.params.waitCycle ≤ (E.st m).uc + 1) ↔ m.opt.params.waitCycle ≤ m.uc + 1 :=
    Iff.rfl
  by_cases hc : m.opt.params.waitCycle ≤ m.uc + 1
  · rw [if_pos hc, if_pos (h1.2 hc)]
    refine ⟨?_, hm.cfg.trans (by constructor <;> rfl), hm.freq⟩
    unfold Er.st
    dsimp only
    rw [List.filterMap_append]; rfl
  · rw [if_neg hc, if_neg (fun h => hc (h1.1 h))]
    exact ⟨rfl, hm.cfg, hm.freq⟩

theorem Sim.invoke (hA : Agree E env env' o) (k : Nat) :
    Sim E o (Act.invoke env k) (Act.invoke env' k) := by
  intro m hm
  unfold Act.invoke
  have hobs : (E.st m).opt.obs = if E.noObs then none else m.opt.obs := rfl
  rw [hobs]
  cases ho : m.opt.obs with
  | none =>
    have : (if E.noObs = true then (none : Option (Obs n)) else none) = none := by split <;> rfl
    rw [this]
    exact ⟨rfl, hm⟩
  | some b =>
    cases hn : E.noObs with
    | true =>
      dsimp only
      rw [if_pos rfl]
      refine ⟨?_, hm.cfg.trans (by constructor <;> rfl), ?_⟩
      · unfold Er.st Er.opt
        rw [hn]
        simp only [if_true, Prod.mk.injEq, and_true, Er.out_c]
        congr 1
        split
        · rw [List.filterMap_append]
          simp [Er.event, hn]
        · rfl
      · intro _ b' hb'
        cases hb'
        unfold Obs.invoke
        split
        · exact hA.freq hn _ _ _ (hm.freq hn b ho)
        · exact hm.freq hn b ho
    | false =>
      dsimp only
      rw [if_neg (by simp)]
      dsimp only
      rw [(hA.obs hn).1]
      refine ⟨?_, hm.cfg.trans (by constructor <;> rfl), fun h => by rw [hn] at h; cases h⟩
      unfold Er.st Er.opt
      rw [hn]
      simp only [Bool.false_eq_true, if_false, Prod.mk.injEq, and_true, Er.out_c]
      congr 1
      split
      · rw [List.filterMap_append]
        simp [Er.event, hn]
      · rfl

theorem Sim.callback (hA : Agree E env env' o) (k : Nat) :
    Sim E o (Act.callback env k) (Act.callback env' k) := by
  intro m hm
  unfold Act.callback
  have hobs : (E.st m).opt.obs = if E.noObs then none else m.opt.obs := rfl
  rw [hobs]
  cases ho : m.opt.obs with
  | none =>
    have : (if E.noObs = true then (none : Option (Obs n)) else none) = none := by split <;> rfl
    rw [this]
    exact ⟨rfl, hm⟩
  | some b =>
    cases hn : E.noObs with
    | true =>
      have hinv := Sim.invoke hA (16 + k) m hm
      have hst : Act.invoke env' (16 + k) (E.st m) = (E.st m, .cont) := by
        unfold Act.invoke
        rw [hobs, hn]; rfl
      have hf := hm.freq hn b ho
      have h0 : b.shouldInvoke k ≠ none := by
        unfold Obs.shouldInvoke
        split
        · rw [if_neg (by omega)]; simp
        · simp
      rw [hst] at hinv
      dsimp only
      rw [if_pos rfl]
      dsimp only
      generalize b.shouldInvoke k = sv at h0
      match sv, h0 with
      | some true, _ => exact hinv
      | some false, _ => exact ⟨rfl, hm⟩
    | false =>
      dsimp only
      rw [if_neg (by simp)]
      dsimp only
      split
      · exact ⟨rfl, hm⟩
      · exact Sim.invoke hA _ m hm
      · exact ⟨rfl, hm⟩

theorem Sim.writeCkpt (hA : Agree E env env' o) :
    Sim E o (Act.writeCkpt env) (Act.writeCkpt env') := by
  intro m hm
  unfold Act.writeCkpt
  dsimp only
  rw [hA.io, hA.stamp]
  have h1 : (E.st m).opt.createCkpt (env.stamp (E.st m).saves) =
      E.ckpt (m.opt.createCkpt (env.stamp m.saves)) := rfl
  have h2 : env.io (E.st m).saves = env.io m.saves := rfl
  rw [h1, h2]
  split
  · refine ⟨?_, hm.cfg, hm.freq⟩
    unfold Er.st
    dsimp only
    rw [List.filterMap_append]; rfl
  · refine ⟨?_, hm.cfg, hm.freq⟩
    unfold Er.st
    dsimp only
    rw [List.filterMap_append]; rfl

theorem Sim.save (hA : Agree E env env' o) : Sim E o (Act.save env) (Act.save env') := by
  intro m hm
  unfold Act.save
  rw [show (E.st m).opt.ckpt = m.opt.ckpt from rfl, show (E.st m).opt.curIter = m.opt.curIter from rfl]
  split
  · exact ⟨rfl, hm⟩
  · split
    · exact ⟨rfl, hm⟩
    · split
      · exact Sim.writeCkpt hA m hm
      · exact ⟨rfl, hm⟩

theorem Sim.saveFinal (hA : Agree E env env' o) :
    Sim E o (Act.saveFinal env) (Act.saveFinal env') := by
  intro m hm
  unfold Act.saveFinal
  rw [show (E.st m).opt.ckpt = m.opt.ckpt from rfl]
  split
  · exact ⟨rfl, hm⟩
  · exact Sim.writeCkpt hA m hm

theorem Er.tracks2 (o : Opt n) (h : E.noObs = false) : (E.opt o).tracks2 = o.tracks2 := by
  unfold Er.opt Opt.tracks2
  rw [h]; rfl

theorem Er.tracks1 (o : Opt n) (h : E.noObs = false) : (E.opt o).tracks1 = o.tracks1 := by
  unfold Er.opt Opt.tracks1
  rw [h]; rfl

theorem Sim.search (hA : Agree E env env' o) {ty : SolverType} {cfg : SolverConfig}
    {it : Option Nat} {p : Pt n} {k k' : Sol n → Nat → Act n}
    (hk : ∀ s e e', (E.noObs = false → e' = e) → Sim E o (k s e) (k' s e')) :
    Sim E o (Act.search env ty cfg it p k) (Act.search env' ty cfg it p k') := by
  intro m hm
  unfold Act.search
  rw [hA.solve]
  cases env.solve ty cfg p with
  | error e =>
    refine ⟨?_, hm.cfg, hm.freq⟩
    unfold Er.st Er.lres
    dsimp only
    rw [List.filterMap_append]; rfl
  | ok q =>
    obtain ⟨s, evals⟩ := q
    simp only [Er.lres]
    have h1 : ({ (E.st m) with trace := (E.st m).trace ++ [.search it p (.ok s)] } : M n) =
        E.st { m with trace := m.trace ++ [.search it p (.ok s)] } := by
      unfold Er.st
      dsimp only
      rw [List.filterMap_append]; rfl
    rw [h1]
    exact hk s _ _ (fun hn => by rw [show (E.st m).opt = E.opt m.opt from rfl, Er.tracks2 _ hn]) _
      ⟨hm.cfg, hm.freq⟩

theorem Sim.getMerit {objs : Option (List F64)} {it : Nat} {p : Pt n} {k k' : F64 → Act n}
    (hk : ∀ v, Sim E o (k v) (k' v)) :
    Sim E o (Act.getMerit objs it p k) (Act.getMerit objs it p k') := by
  intro m hm
  unfold Act.getMerit
  dsimp only
  have h1 : (if objs.isNone = true then { (E.st m) with trace := (E.st m).trace ++ [.evaluate it p] }
      else E.st m) = E.st (if objs.isNone = true then
        { m with trace := m.trace ++ [.evaluate it p] } else m) := by
    split
    · unfold Er.st
      dsimp only
      rw [List.filterMap_append]; rfl
    · rfl
  have h2 : Good E o (if objs.isNone = true then
        { m with trace := m.trace ++ [.evaluate it p] } else m) := by
    split
    · exact ⟨hm.cfg, hm.freq⟩
    · exact hm
  have h3 : Act.meritValue (E.st m).opt objs it p = Act.meritValue m.opt objs it p := rfl
  rw [h1, h3]
  cases hmv : Act.meritValue m.opt objs it p with
  | error e =>
    refine ⟨?_, h2⟩
    rcases meritValue_error hmv with ⟨_, rfl⟩ | ⟨_, rfl, _⟩ <;> rfl
  | ok v =>
    refine Sim.seq ?_ (hk _) _ h2
    split
    · exact Sim.obsEvals 1
    · exact Sim.skip

theorem Sim.localSeq (hA : Agree E env env' o) (i : Nat) (p : Pt n) (v : F64) :
    Sim E o (Act.localSeq env i p v) (Act.localSeq env' i p v) := by
  intro m hm
  unfold Act.localSeq
  rw [show (E.st m).opt.lsType = m.opt.lsType from rfl,
    show (E.st m).opt.lsConfig = m.opt.lsConfig from rfl]
  have hk : Sim E o
      (Act.setThreshold v ;; Act.search env m.opt.lsType m.opt.lsConfig (some i) p fun s evals =>
        Act.process s fun v => Act.obsLocal v.returned evals ;; Act.stopIfTarget)
      (Act.setThreshold v ;; Act.search env' m.opt.lsType m.opt.lsConfig (some i) p fun s evals =>
        Act.process s fun v => Act.obsLocal v.returned evals ;; Act.stopIfTarget) := by
    refine Sim.seq (Sim.setThreshold v) (Sim.search hA ?_)
    intro s e e' h
    refine Sim.process ?_
    intro v
    exact (Sim.obsLocal _ h).seq Sim.stopIfTarget
  exact hk m hm

theorem Sim.stepSeq (hA : Agree E env env' o) (r : Bool) (st : Nat) (objs : Option (List F64))
    {it : Nat × Pt n} (hi : it.1 ≤ o.params.iterations) :
    Sim E o (Act.stepSeq env r st objs it) (Act.stepSeq env' r st objs it) := by
  unfold Act.stepSeq
  split
  · exact Sim.skip
  · refine (Sim.beginIter hA hi).seq ((Sim.obsIter _).seq (Sim.getMerit fun v => ?_))
    intro m hm
    have h1 : (E.st m).opt.shouldStart it.2 v = m.opt.shouldStart it.2 v := rfl
    dsimp only
    rw [h1]
    refine (Sim.log rfl).seq (Sim.seq ?_ ((Sim.callback hA _).seq (Sim.save hA))) m hm
    split
    · exact Sim.localSeq hA _ _ _
    · exact Sim.reject _

theorem Sim.batchSeq (hA : Agree E env env' o) (r : Bool) (st : Nat) (objs : Option (List F64))
    {its : List (Nat × Pt n)} (hi : ∀ it ∈ its, it.1 ≤ o.params.iterations) :
    Sim E o (Act.batchSeq env r st objs its) (Act.batchSeq env' r st objs its) :=
  Sim.all its _ _ fun it hit => Sim.stepSeq hA r st objs (hi it hit)

theorem Sim.quickPar (hA : Agree E env env' o) {i : Nat} (hi : i ≤ o.params.iterations) :
    Sim E o (Act.quickPar env i) (Act.quickPar env' i) :=
  (Sim.beginIter hA hi).seq ((Sim.reject _).seq ((Sim.obsIter _).seq
    ((Sim.callback hA _).seq (Sim.save hA))))

theorem Sim.resultPar (hA : Agree E env env' o) {i : Nat} (hi : i ≤ o.params.iterations) (v : F64)
    (s : Sol n) {e e' : Nat} (h : E.noObs = false → e' = e) :
    Sim E o (Act.resultPar env i v s e) (Act.resultPar env' i v s e') :=
  (Sim.beginIter hA hi).seq ((Sim.setThreshold _).seq (Sim.process fun _ =>
    (Sim.obsLocal _ h).seq ((Sim.obsIter _).seq ((Sim.callback hA _).seq
      (Sim.stopIfTarget.seq (Sim.save hA))))))

theorem Sim.singlePar (hA : Agree E env env' o) {i : Nat} (hi : i ≤ o.params.iterations) (p : Pt n)
    (v : F64) : Sim E o (Act.singlePar env i p v) (Act.singlePar env' i p v) := by
  intro m hm
  unfold Act.singlePar
  rw [show (E.st m).opt.lsType = m.opt.lsType from rfl,
    show (E.st m).opt.lsConfig = m.opt.lsConfig from rfl]
  have hk : Sim E o
      (Act.beginIter env i ;; Act.setThreshold v ;;
        Act.search env m.opt.lsType m.opt.lsConfig (some i) p fun s evals =>
          Act.process s fun v =>
            Act.obsLocal v.returned evals ;; Act.obsIter i ;; Act.invoke env (16 + i) ;;
              Act.stopIfTarget ;; Act.save env)
      (Act.beginIter env' i ;; Act.setThreshold v ;;
        Act.search env' m.opt.lsType m.opt.lsConfig (some i) p fun s evals =>
          Act.process s fun v =>
            Act.obsLocal v.returned evals ;; Act.obsIter i ;; Act.invoke env' (16 + i) ;;
              Act.stopIfTarget ;; Act.save env') := by
    refine Sim.seq (Sim.beginIter hA hi) (Sim.seq (Sim.setThreshold v) (Sim.search hA ?_))
    intro s e e' h
    refine Sim.process ?_
    intro v
    exact (Sim.obsLocal _ h).seq ((Sim.obsIter _).seq ((Sim.invoke hA _).seq
      (Sim.stopIfTarget.seq (Sim.save hA))))
  exact hk m hm

theorem optAll_mapMap {α β : Type} (l : List (Option α)) (g : α → β) :
    optAll (l.map (Option.map g)) = (optAll l).map (List.map g) := by
  induction l with
  | nil => rfl
  | cons a l ih =>
    cases a with
    | none => rfl
    | some a =>
      simp only [List.map_cons, Option.map_some, optAll, ih]
      cases optAll l <;> rfl

theorem parSlots_map {α β γ : Type} (f : α → β) (g : β → γ) (l : List α) (order : List Nat)
    (s : List (Option β)) :
    order.foldl (fun slots i => match l[i]? with
      | some a => slots.set i (some (g (f a)))
      | none => slots) (s.map (Option.map g)) =
    (order.foldl (fun slots i => match l[i]? with
      | some a => slots.set i (some (f a))
      | none => slots) s).map (Option.map g) := by
  induction order generalizing s with
  | nil => rfl
  | cons j order ih =>
    rw [List.foldl_cons, List.foldl_cons, ← ih]
    congr 1
    cases l[j]? with
    | none => rfl
    | some a => dsimp only; rw [List.map_set]; rfl

variable (E) in
/-- Rename errors and map results. -/
def emap {β γ : Type} (g : β → γ) : Except Err β → Except Err γ
  | .error e => .error (E.err e)
  | .ok b => .ok (g b)

theorem seqCollect_map {β γ : Type} (rs : List (Except Err β)) (g : β → γ) :
    seqCollect (rs.map (emap E g)) = emap E (List.map g) (seqCollect rs) := by
  unfold seqCollect
  induction rs with
  | nil => rfl
  | cons r rs ih =>
    rw [List.map_cons, List.foldr_cons, List.foldr_cons, ih]
    generalize List.foldr _ _ rs = acc
    cases r <;> cases acc <;> rfl

/-- Mapping the results of the tasks maps the collected results. -/
theorem parCollect_map {α β γ : Type} (f : α → Except Err β) (g : β → γ) (l : List α)
    (order : List Nat) :
    Act.parCollect (fun a => emap E g (f a)) l order = emap E (List.map g) (Act.parCollect f l order) := by
  unfold Act.parCollect
  have hfind : ∀ (F : Nat → Option Err), order.findSome? (fun i => (F i).map E.err) =
      (order.findSome? F).map E.err := by
    intro F
    clear f
    induction order with
    | nil => rfl
    | cons i order ih =>
      rw [List.findSome?_cons, List.findSome?_cons]
      cases F i with
      | none => exact ih
      | some e => rfl
  have key : ∀ (F G : Nat → Option Err) (X : Except Err (List γ)) (Y : Except Err (List β)),
      (F = fun i => (G i).map E.err) → X = emap E (List.map g) Y →
      (match order.findSome? F with
        | some e => (.error e : Except Err (List γ))
        | none => X) =
      emap E (List.map g) (match order.findSome? G with
        | some e => (.error e : Except Err (List β))
        | none => Y) := by
    intro F G X Y h1 h2
    rw [h1, h2, hfind]
    cases order.findSome? G <;> rfl
  refine key _ _ _ _ ?_ ?_
  · funext i
    cases l[i]? with
    | none => rfl
    | some a =>
      simp only [Option.bind_some]
      cases f a <;> rfl
  · have h2 : Act.parSlots (fun a => emap E g (f a)) l order =
        (Act.parSlots f l order).map (Option.map (emap E g)) := by
      have h3 := parSlots_map f (emap E g) l order (l.map fun _ => none)
      rw [List.map_map] at h3
      exact h3
    rw [h2, optAll_mapMap]
    cases optAll (Act.parSlots f l order) with
    | none => rfl
    | some rs => exact seqCollect_map rs g

theorem Er.solveTask (hA : Agree E env env' o) (x : Opt n) (c : Nat × Pt n × F64) :
    Act.solveTask env' (E.opt x) c = emap E (fun r =>
      (r.1, r.2.1, r.2.2.1, if E.noObs then 0 else r.2.2.2)) (Act.solveTask env x c) := by
  unfold Act.solveTask
  rw [hA.solve]
  rw [show (E.opt x).params = x.params from rfl]
  unfold Er.lres
  cases env.solve x.params.solverType x.params.solverConfig c.2.1 with
  | error e => rfl
  | ok q =>
    obtain ⟨s, k⟩ := q
    show Except.ok _ = Except.ok _
    cases hn : E.noObs with
    | false => rw [Er.tracks2 _ hn]; rfl
    | true =>
      have : (E.opt x).tracks2 = false := by
        unfold Er.opt Opt.tracks2; rw [hn]; rfl
      rw [this]; rfl

theorem Sim.groupPar (hA : Agree E env env' o) (k : Nat) {c : List (Nat × Pt n × F64)}
    (hl : c.length ≤ o.params.iterations) (hi : ∀ x ∈ c, x.1 ≤ o.params.iterations) :
    Sim E o (Act.groupPar env k c) (Act.groupPar env' k c) := by
  intro m hm
  unfold Act.groupPar
  have hcol : Act.parCollect (Act.solveTask env' (E.st m).opt) c (env'.solveOrder k) =
      emap E (List.map fun r => (r.1, r.2.1, r.2.2.1, if E.noObs then 0 else r.2.2.2))
        (Act.parCollect (Act.solveTask env m.opt) c (env.solveOrder k)) := by
    have h1 : Act.solveTask env' (E.st m).opt = fun a => emap E (fun r =>
        (r.1, r.2.1, r.2.2.1, if E.noObs then 0 else r.2.2.2)) (Act.solveTask env m.opt a) :=
      funext fun a => Er.solveTask hA m.opt a
    rw [h1, parCollect_map]
    congr 1
    rcases hA.par with h | ⟨h1, h2, h3⟩
    · rw [(h k).2]
    · refine parCollect_order ((h2 k).2.mono hl) ((h1 k).2.mono hl) ?_
      intro a _ b _ x y ha hb
      unfold Act.solveTask at ha hb
      rw [hm.cfg.params] at ha hb
      split at ha
      · rename_i x' hx'
        split at hb
        · rename_i y' hy'
          cases ha; cases hb
          rw [h3 _ _ _ _ hx' hy']
        · cases hb
      · cases ha
  have htr : ({ (E.st m) with trace := (E.st m).trace ++ c.map (Act.solveEvent env' (E.st m).opt) } : M n)
      = E.st { m with trace := m.trace ++ c.map (Act.solveEvent env m.opt) } := by
    unfold Er.st
    dsimp only
    rw [List.filterMap_append]
    congr 2
    rw [List.filterMap_map]
    have : (E.event ∘ Act.solveEvent env m.opt) = fun x => some (Act.solveEvent env' (E.opt m.opt) x) := by
      funext x
      unfold Act.solveEvent
      rw [hA.solve]
      show E.event (.search _ _ (Except.map Prod.fst (env.solve m.opt.params.solverType
        m.opt.params.solverConfig x.2.1))) = some (.search _ _ (Except.map Prod.fst
          (E.lres (env.solve m.opt.params.solverType m.opt.params.solverConfig x.2.1))))
      cases env.solve m.opt.params.solverType m.opt.params.solverConfig x.2.1 <;> rfl
    rw [this]
    exact (List.filterMap_eq_map (f := Act.solveEvent env' (E.opt m.opt)) ▸ rfl)
  rw [hcol, htr]
  have hg : Good E o ({ m with trace := m.trace ++ c.map (Act.solveEvent env m.opt) } : M n) :=
    ⟨hm.cfg, hm.freq⟩
  cases hrs : Act.parCollect (Act.solveTask env m.opt) c (env.solveOrder k) with
  | error e => exact ⟨rfl, hg⟩
  | ok rs =>
    show Act.all ((rs.map _).map _) _ = _ ∧ _
    rw [List.map_map]
    refine Sim.all rs (fun r => Act.resultPar env r.1 r.2.1 r.2.2.1 r.2.2.2) _ ?_ _ hg
    intro r hr
    refine Sim.resultPar hA ?_ _ _ ?_
    · have hm' : Except.ok r ∈ c.map (Act.solveTask env m.opt) := by
        rw [parCollect_ok hrs]; exact List.mem_map.2 ⟨r, hr, rfl⟩
      obtain ⟨a, ha, hae⟩ := List.mem_map.1 hm'
      unfold Act.solveTask at hae
      split at hae
      · cases hae
      · cases hae
        exact hi a ha
    · intro hn; dsimp only; rw [hn]; rfl

theorem Sim.localsPar (hA : Agree E env env' o) (k : Nat) {c : List (Nat × Pt n × F64)}
    (hl : c.length ≤ o.params.iterations) (hi : ∀ x ∈ c, x.1 ≤ o.params.iterations) :
    Sim E o (Act.localsPar env k c) (Act.localsPar env' k c) := by
  intro m hm
  unfold Act.localsPar
  rw [show (E.st m).opt.par = m.opt.par from rfl]
  split
  · exact Sim.groupPar hA k hl hi m hm
  · exact Sim.all c _ _ (fun x hx => Sim.singlePar hA (hi x hx) _ _) m hm

theorem Sim.afterEval (hA : Agree E env env' o) (objs : Option (List F64)) (k : Nat)
    {vals : List (Nat × Pt n × F64)} (hl : vals.length ≤ o.params.iterations)
    (hi : ∀ x ∈ vals, x.1 ≤ o.params.iterations) :
    Sim E o (Act.afterEval env objs k vals) (Act.afterEval env' objs k vals) := by
  intro m hm
  unfold Act.afterEval
  have hp : Act.passes (E.st m).opt = Act.passes m.opt := rfl
  rw [hp]
  have htr : ({ (E.st m) with
        trace := (E.st m).trace ++
          (vals.map fun c => Event.examine c.1 c.2.1 c.2.2 (Act.passes m.opt c)) } : M n)
      = E.st { m with
          trace := m.trace ++
            (vals.map fun c => Event.examine c.1 c.2.1 c.2.2 (Act.passes m.opt c)) } := by
    unfold Er.st
    dsimp only
    rw [List.filterMap_append]
    congr 2
    rw [List.filterMap_map]
    exact (List.filterMap_eq_map (f := fun c : Nat × Pt n × F64 =>
      Event.examine c.1 c.2.1 c.2.2 (Act.passes m.opt c)) ▸ rfl)
  rw [htr]
  refine Sim.seq ?_ (Sim.seq (Sim.all _ _ _ fun x hx => Sim.quickPar hA
    (hi x (List.mem_filter.1 hx).1)) (Sim.localsPar hA k ?_ fun x hx =>
      hi x (List.mem_filter.1 hx).1)) _ ⟨hm.cfg, hm.freq⟩
  · split
    · exact Sim.obsEvals _
    · exact Sim.skip
  · exact (List.length_filter_le _ _).trans hl

theorem meritValue_errors {x : Opt n} {objs : Option (List F64)} {i j : Nat} {p q : Pt n} {e f : Err}
    (h1 : Act.meritValue x objs i p = .error e) (h2 : Act.meritValue x objs j q = .error f) : e = f := by
  rcases meritValue_error h1 with ⟨a, rfl⟩ | ⟨a, rfl, _⟩ <;>
  rcases meritValue_error h2 with ⟨b, rfl⟩ | ⟨b, rfl, _⟩ <;>
  first | rfl | (rw [a] at b; cases b)

/-- Renaming local solver errors does not concern a parallel evaluation. -/
theorem parCollect_evalErr {x : Opt n} {objs : Option (List F64)} {l : List (Nat × Pt n)}
    {order : List Nat} {e : Err} (h : Act.parCollect (Act.evalTask x objs) l order = .error e) :
    E.err e = e := by
  have h1 := parCollect_map (E := E) (Act.evalTask x objs) id l order
  have h2 : (fun a => emap E id (Act.evalTask x objs a)) = Act.evalTask x objs := by
    funext a
    unfold Act.evalTask
    cases hm : Act.meritValue x objs a.1 a.2 with
    | ok v => rfl
    | error e =>
      rcases meritValue_error hm with ⟨_, rfl⟩ | ⟨_, rfl, _⟩ <;> rfl
  rw [h2, h] at h1
  injection h1 with h1
  exact h1.symm

theorem Sim.batchParItems (hA : Agree E env env' o) (objs : Option (List F64))
    {its : List (Nat × Pt n)} (hl : its.length ≤ o.params.iterations)
    (hi : ∀ it ∈ its, it.1 ≤ o.params.iterations) :
    Sim E o (Act.batchParItems env objs its) (Act.batchParItems env' objs its) := by
  cases its with
  | nil => exact Sim.skip
  | cons it0 its =>
    intro m hm
    unfold Act.batchParItems
    dsimp only
    have hlog : Act.logEvals objs (it0 :: its) (E.st m) = E.st (Act.logEvals objs (it0 :: its) m) := by
      unfold Act.logEvals
      split
      · unfold Er.st
        dsimp only
        rw [List.filterMap_append]
        congr 2
        rw [List.filterMap_map]
        exact (List.filterMap_eq_map (f := fun it : Nat × Pt n => Event.evaluate it.1 it.2) ▸ rfl)
      · rfl
    have hg : Good E o (Act.logEvals objs (it0 :: its) m) := by
      unfold Act.logEvals
      split
      · exact ⟨hm.cfg, hm.freq⟩
      · exact hm
    have hcol : Act.parCollect (Act.evalTask (E.st m).opt objs) (it0 :: its) (env'.evalOrder it0.1) =
        Act.parCollect (Act.evalTask m.opt objs) (it0 :: its) (env.evalOrder it0.1) := by
      have h1 : Act.evalTask (E.st m).opt objs = Act.evalTask m.opt objs := rfl
      rw [h1]
      rcases hA.par with h | ⟨h1, h2, h3⟩
      · rw [(h _).1]
      · refine parCollect_order ((h2 _).1.mono hl) ((h1 _).1.mono hl) ?_
        intro a _ b _ x y ha hb
        unfold Act.evalTask at ha hb
        cases hma : Act.meritValue m.opt objs a.1 a.2 with
        | ok v => rw [hma] at ha; cases ha
        | error e =>
          cases hmb : Act.meritValue m.opt objs b.1 b.2 with
          | ok v => rw [hmb] at hb; cases hb
          | error f =>
            rw [hma] at ha; rw [hmb] at hb
            cases ha; cases hb
            exact meritValue_errors hma hmb
    rw [hcol, hlog]
    cases hv : Act.parCollect (Act.evalTask m.opt objs) (it0 :: its) (env.evalOrder it0.1) with
    | error e =>
      refine ⟨?_, hg⟩
      have he : E.err e = e := parCollect_evalErr hv
      show _ = (_, Out.fail (E.err e))
      rw [he]
    | ok vals =>
      have hmap := parCollect_ok hv
      refine Sim.afterEval hA objs it0.1 ?_ ?_ _ hg
      · have := congrArg List.length hmap
        rw [List.length_map, List.length_map] at this
        omega
      · intro x hx
        have : Except.ok x ∈ (it0 :: its).map (Act.evalTask m.opt objs) := by
          rw [hmap]; exact List.mem_map.2 ⟨x, hx, rfl⟩
        obtain ⟨a, ha, hae⟩ := List.mem_map.1 this
        unfold Act.evalTask at hae
        cases hma : Act.meritValue m.opt objs a.1 a.2 with
        | error e => rw [hma] at hae; cases hae
        | ok v => rw [hma] at hae; cases hae; exact hi a ha

theorem Sim.procBatch (hA : Agree E env env' o) (r : Bool) (st : Nat) (objs : Option (List F64))
    (eff : Nat) {its : List (Nat × Pt n)} (hl : its.length ≤ o.params.iterations)
    (hi : ∀ it ∈ its, it.1 ≤ o.params.iterations) :
    Sim E o (Act.procBatch env r st objs eff its) (Act.procBatch env' r st objs eff its) := by
  unfold Act.procBatch
  split
  · unfold Act.batchPar
    split
    · exact Sim.batchParItems hA objs ((List.length_filter_le _ _).trans hl)
        fun it hit => hi it (List.mem_filter.1 hit).1
    · exact Sim.batchParItems hA objs hl hi
  · exact Sim.batchSeq hA r st objs hi

theorem Sim.loop (hA : Agree E env env' o) (r : Bool) (st : Nat) (objs : Option (List F64))
    (eff k : Nat) {bs : List (List (Nat × Pt n))} (hl : ∀ b ∈ bs, b.length ≤ o.params.iterations)
    (hi : ∀ b ∈ bs, ∀ it ∈ b, it.1 ≤ o.params.iterations) :
    Sim E o (Act.loop env r st objs eff k bs) (Act.loop env' r st objs eff k bs) := by
  induction bs generalizing k with
  | nil => exact Sim.skip
  | cons b bs ih =>
    intro m hm
    unfold Act.loop
    have ht : Act.timedOut env' (E.st m).opt k = Act.timedOut env m.opt k := by
      have h1 := hA.late k
      unfold Act.timedOut at h1 ⊢
      rw [show (E.st m).opt.maxTime = E.time m.opt.maxTime from rfl, hm.cfg.maxTime]
      rw [show (E.opt o).maxTime = E.time o.maxTime from rfl] at h1
      exact h1
    rw [ht]
    split
    · exact ⟨rfl, hm⟩
    · obtain ⟨h1, h2⟩ := Sim.procBatch hA r st objs eff (hl b (by simp)) (hi b (by simp)) m hm
      rw [h1]
      generalize Act.procBatch env r st objs eff b m = res at h2
      obtain ⟨m', out⟩ := res
      have hrest := ih (k + 1) (fun b hb => hl b (by simp [hb])) (fun b hb => hi b (by simp [hb])) m' h2
      cases out
      case fail => exact ⟨rfl, h2⟩
      all_goals
        dsimp only [Er.out]
        rw [show (E.st m').opt.targetReached = m'.opt.targetReached from rfl]
        split
        · exact ⟨rfl, h2⟩
        · exact hrest

theorem chunksF_sub {α : Type} (k f : Nat) (l : List α) :
    ∀ b ∈ chunksF k f l, ∀ x ∈ b, x ∈ l := by
  induction f generalizing l with
  | zero => intro b hb; simp [chunksF] at hb
  | succ f ih =>
    intro b hb
    cases l with
    | nil => simp [chunksF] at hb
    | cons a l =>
      simp only [chunksF, List.mem_cons] at hb
      rcases hb with rfl | hb
      · exact fun x hx => List.mem_of_mem_take hx
      · exact fun x hx => List.mem_of_mem_drop (ih _ b hb x hx)

theorem items_lt {iterations st : Nat} {ref : List (Pt n)} {it : Nat × Pt n}
    (h : it ∈ Act.items iterations st ref) : it.1 < iterations := by
  unfold Act.items at h
  have h := List.mem_of_mem_drop h
  rw [List.mem_map] at h
  obtain ⟨q, hq, rfl⟩ := h
  have := List.snd_lt_of_mem_zipIdx hq
  rw [List.length_take] at this
  dsimp only
  omega

theorem Sim.stage2Main (hA : Agree E env env' o) (r : Bool) (st : Nat) (ref : List (Pt n))
    (objs : Option (List F64)) :
    Sim E o (Act.stage2Main env r st ref objs) (Act.stage2Main env' r st ref objs) := by
  intro m hm
  unfold Act.stage2Main
  have he : (E.st m).opt.effBatch env'.threads st = m.opt.effBatch env.threads st := by
    have h1 := hA.eff st
    have h2 : ∀ t, m.opt.effBatch t st = o.effBatch t st := by
      intro t; unfold Opt.effBatch; rw [hm.cfg.par, hm.cfg.batch, hm.cfg.params]
    have h3 : ∀ t, (E.st m).opt.effBatch t st = (E.opt o).effBatch t st := by
      intro t
      unfold Opt.effBatch
      rw [show (E.st m).opt.par = m.opt.par from rfl, show (E.opt o).par = o.par from rfl, hm.cfg.par,
        show (E.st m).opt.batch = E.batch m.opt.batch from rfl,
        show (E.opt o).batch = E.batch o.batch from rfl, hm.cfg.batch,
        show (E.st m).opt.params = m.opt.params from rfl,
        show (E.opt o).params = o.params from rfl, hm.cfg.params]
    rw [h2, h3, h1]
  rw [he, show (E.st m).opt.params = m.opt.params from rfl]
  split
  · exact ⟨rfl, hm⟩
  · refine Sim.seq (Sim.loop hA r st objs _ 0 ?_ ?_) (Sim.seq ?_ (Sim.saveFinal hA)) m hm
    · intro b hb
      have := chunksF_mem_length _ _ _ b hb
      rw [items_length, hm.cfg.params] at this
      omega
    · intro b hb it hit
      have := items_lt (chunksF_sub _ _ _ b hb it hit)
      rw [hm.cfg.params] at this
      omega
    · unfold Act.obsEnd2
      exact Sim.obs (fun _ _ => Obs.upd2_frequency _ _) (fun hn _ => by rw [(hA.obs hn).2])

theorem Sim.setSeed (sd : Nat) : Sim E o (Act.setSeed sd) (Act.setSeed sd) :=
  Sim.modify (fun _ => rfl) (fun _ => by constructor <;> rfl) (fun _ => rfl)

theorem Sim.storeRef (ref : List (Pt n)) : Sim E o (Act.storeRef ref) (Act.storeRef ref) :=
  Sim.modify (fun _ => rfl) (fun _ => by constructor <;> rfl) (fun _ => rfl)

theorem Sim.obsStart2 (hA : Agree E env env' o) : Sim E o (Act.obsStart2 env) (Act.obsStart2 env') := by
  unfold Act.obsStart2
  refine Sim.obs (fun x b => ?_) (fun hn x => ?_)
  · exact Obs.upd2_frequency _ _
  · rw [(hA.obs hn).2]; rfl

/-- Stage 2 of a run whose iteration counter is within the iterations. -/
theorem sim_stage2 (hA : Agree E env env' o) (r : Bool) (ref : List (Pt n)) (objs : Option (List F64))
    (m : M n) (hm : Good E o m) (hc : r = false → m.opt.curIter = o.curIter) :
    Act.stage2 env' r ref objs (E.st m) =
      (E.st (Act.stage2 env r ref objs m).1, E.out (Act.stage2 env r ref objs m).2) ∧
    Good E o (Act.stage2 env r ref objs m).1 := by
  unfold Act.stage2
  obtain ⟨h1, h2⟩ := Sim.obsStart2 hA m hm
  rw [Act.seq_def, Act.seq_def, h1]
  rw [show (Act.obsStart2 env m).2 = .cont from rfl, Er.out_c]
  rw [if_pos rfl, if_pos rfl]
  have hcur : (Act.obsStart2 env m).1.opt.curIter = m.opt.curIter := rfl
  generalize (Act.obsStart2 env m).1 = m1 at *
  cases r with
  | true =>
    simp only [if_true]
    exact Sim.stage2Main hA true _ ref objs m1 h2
  | false =>
    simp only [Bool.false_eq_true, if_false]
    have ha : Opt.shuffleSeed env' (E.st m1).opt.params.seed (E.st m1).opt.curIter =
        Opt.shuffleSeed env m1.opt.params.seed m1.opt.curIter := by
      show Opt.shuffleSeed _ m1.opt.params.seed m1.opt.curIter = _
      rw [h2.cfg.params]
      rw [show m1.opt.curIter = o.curIter from by rw [hcur]; exact hc rfl]
      exact hA.add.2
    rw [ha, hA.rt]
    split
    · exact ⟨rfl, h2⟩
    · exact Sim.seq (Sim.setSeed _) (Sim.stage2Main hA false 0 _ objs) m1 h2

theorem Sim.obsEnd1 (hA : Agree E env env' o) : Sim E o (Act.obsEnd1 env) (Act.obsEnd1 env') := by
  unfold Act.obsEnd1
  refine Sim.seq (Sim.obs (fun _ _ => Obs.upd1_frequency _ _) (fun hn _ => by rw [(hA.obs hn).2]))
    ((Sim.invoke hA 7).seq (Sim.obs (g := fun _ b => b.markStage1Complete)
      (g' := fun _ b => b.markStage1Complete) (fun _ _ => rfl) (fun _ _ => rfl)))

theorem Sim.obsLocal1 (hA : Agree E env env' o) (s : Sol n) {e e' : Nat}
    (h : E.noObs = false → e' = e) : Sim E o (Act.obsLocal1 env s e) (Act.obsLocal1 env' s e') := by
  unfold Act.obsLocal1
  exact Sim.seq (Sim.obs (fun _ _ => Obs.upd1_frequency _ _)
    (fun hn _ => by rw [(hA.obs hn).2, h hn])) (Sim.invoke hA 6)

theorem Sim.stage1Local (hA : Agree E env env' o) (p : Pt n) (ref : List (Pt n)) :
    Sim E o (Act.stage1Local env p ref) (Act.stage1Local env' p ref) := by
  intro m hm
  unfold Act.stage1Local
  rw [hA.solve, show (E.st m).opt.lsType = m.opt.lsType from rfl,
    show (E.st m).opt.lsConfig = m.opt.lsConfig from rfl]
  cases env.solve m.opt.lsType m.opt.lsConfig p with
  | error e =>
    refine ⟨?_, hm.cfg, hm.freq⟩
    unfold Er.st Er.lres
    dsimp only
    rw [List.filterMap_append]; rfl
  | ok q =>
    obtain ⟨s, evals⟩ := q
    simp only [Er.lres]
    have h1 : ({ (E.st m) with trace := (E.st m).trace ++ [.search none p (.ok s)] } : M n) =
        E.st { m with trace := m.trace ++ [.search none p (.ok s)] } := by
      unfold Er.st
      dsimp only
      rw [List.filterMap_append]; rfl
    rw [h1]
    refine (Sim.setThreshold _).seq ((Sim.obsLocal1 hA s ?_).seq (Sim.process fun _ => ?_)) _
      ⟨hm.cfg, hm.freq⟩
    · intro hn
      rw [show (E.st m).opt = E.opt m.opt from rfl, Er.tracks1 _ hn]
    · intro m' hm'
      dsimp only
      rw [show (E.st m').opt.targetReached = m'.opt.targetReached from rfl]
      split
      · exact Sim.seq (Sim.obsEnd1 hA) (fun _ h => ⟨rfl, h⟩) m' hm'
      · exact Sim.seq (Sim.storeRef ref) (Sim.obsEnd1 hA) m' hm'

theorem Sim.obsScatterDone (hA : Agree E env env' o) (ref : List (Pt n)) (objs : List F64) :
    Sim E o (Act.obsScatterDone env ref objs) (Act.obsScatterDone env' ref objs) := by
  unfold Act.obsScatterDone
  exact Sim.seq (Sim.obs (fun _ _ => Obs.upd1_frequency _ _) (fun hn _ => by rw [(hA.obs hn).2]))
    ((Sim.invoke hA 4).seq (Sim.obs (fun _ _ => Obs.upd1_frequency _ _)
      (fun hn _ => by rw [(hA.obs hn).2])))

theorem Sim.obsScatter (hA : Agree E env env' o) (r : Scatter.Result n) :
    Sim E o (Act.obsScatter env r) (Act.obsScatter env' r) := by
  unfold Act.obsScatter
  exact Sim.seq (Sim.obs (fun _ _ => Obs.upd1_frequency _ _) (fun hn _ => by rw [(hA.obs hn).2]))
    ((Sim.invoke hA 1).seq ((Sim.obs (fun _ _ => Obs.upd1_frequency _ _)
      (fun hn _ => by rw [(hA.obs hn).2])).seq ((Sim.invoke hA 2).seq
        ((Sim.obs (fun _ _ => Obs.upd1_frequency _ _) (fun hn _ => by rw [(hA.obs hn).2])).seq
          (Sim.invoke hA 3)))))

/-- Without observer the scatter-search updates do nothing. -/
theorem obsScatter_none (env : Env n) (r : Scatter.Result n) (m : M n) (h : m.opt.obs = none) :
    Act.obsScatter env r m = (m, .cont) := by
  have hmod : ∀ (g : Obs n → Obs n), Act.modify (fun x => x.mapObs g) m = (m, .cont) := by
    intro g
    obtain ⟨x, u, s, t⟩ := m
    unfold Act.modify Opt.mapObs
    dsimp only at h ⊢
    rw [h]
    obtain ⟨⟩ := x
    dsimp only at h
    subst h
    rfl
  have hinv : ∀ k, Act.invoke env k m = (m, .cont) := by
    intro k; unfold Act.invoke; rw [h]
  unfold Act.obsScatter
  simp only [Act.seq, hmod, hinv]

theorem steps_curIter_obs {a : Act n} (h : ∀ m, (a m).1.opt.curIter = m.opt.curIter) {b : Act n}
    (k : ∀ m, (b m).1.opt.curIter = m.opt.curIter) (m : M n) :
    ((a ;; b) m).1.opt.curIter = m.opt.curIter := by
  rw [Act.seq_def]
  split
  · rw [k, h]
  · exact h m

theorem curIter_invoke (env : Env n) (k : Nat) (m : M n) :
    (Act.invoke env k m).1.opt.curIter = m.opt.curIter := by
  unfold Act.invoke; split <;> rfl

theorem curIter_stage1Local (env : Env n) (p : Pt n) (ref : List (Pt n)) (m : M n) :
    (Act.stage1Local env p ref m).1.opt.curIter = m.opt.curIter := by
  have hend : ∀ m, (Act.obsEnd1 env m).1.opt.curIter = m.opt.curIter :=
    steps_curIter_obs (fun _ => rfl) (steps_curIter_obs (curIter_invoke env 7) (fun _ => rfl))
  unfold Act.stage1Local
  split
  · rfl
  · rename_i s evals _
    refine steps_curIter_obs (fun _ => rfl) (steps_curIter_obs
      (steps_curIter_obs (fun _ => rfl) (curIter_invoke env 6)) ?_) _
    intro m'
    have hp : (m'.opt.process s).1.curIter = m'.opt.curIter := by
      unfold Opt.process
      dsimp only
      split
      · rfl
      · dsimp only [Opt.mapObs]
        (repeat' split) <;> rfl
    unfold Act.process
    dsimp only
    split
    · exact hp
    · split
      · exact (steps_curIter_obs hend (fun _ => rfl) _).trans hp
      · exact (steps_curIter_obs (fun _ => rfl) hend _).trans hp

theorem sim_fresh (hA : Agree E env env' o) (m : M n) (hm : Good E o m)
    (hc : m.opt.curIter = o.curIter) :
    Act.body env' false (E.st m) =
      (E.st (Act.body env false m).1, E.out (Act.body env false m).2) ∧
    Good E o (Act.body env false m).1 := by
  unfold Act.body
  rw [if_neg (by simp), if_neg (by simp)]
  unfold Act.stage1
  have hsc : Act.scatter env' (E.st m).opt = Act.scatter env m.opt := by
    unfold Act.scatter
    rw [hA.rt, hA.sched]; rfl
  rw [hsc]
  cases hr : Act.scatter env m.opt with
  | error e =>
    refine ⟨?_, hm⟩
    unfold Act.scatter at hr
    split at hr
    · cases hr; rfl
    · dsimp only at hr
      generalize (match m.opt.custom with
        | some l => Scatter.withCustom _ l
        | none => _) = s' at hr
      split at hr
      · cases hr; rfl
      · cases hr
  | ok r =>
    dsimp only
    have hfirst : Sim E o (if m.opt.tracks1 = true then Act.obsScatter env r else Act.skip)
        (if (E.st m).opt.tracks1 = true then Act.obsScatter env' r else Act.skip) := by
      cases hn : E.noObs with
      | false =>
        rw [show (E.st m).opt = E.opt m.opt from rfl, Er.tracks1 _ hn]
        split
        · exact Sim.obsScatter hA r
        · exact Sim.skip
      | true =>
        have h0 : ¬(E.st m).opt.tracks1 = true := by
          unfold Er.st Er.opt Opt.tracks1; rw [hn]; simp
        rw [if_neg h0]
        split
        · intro m' hm'
          have := Sim.obsScatter hA r m' hm'
          rw [obsScatter_none env' r (E.st m') (by unfold Er.st Er.opt; rw [hn]; rfl)] at this
          exact this
        · exact Sim.skip
    have hc1 : ∀ m' : M n, ((if m.opt.tracks1 = true then Act.obsScatter env r else Act.skip) m').1.opt.curIter =
        m'.opt.curIter := by
      intro m'
      split
      · unfold Act.obsScatter
        exact steps_curIter_obs (fun _ => rfl) (steps_curIter_obs (curIter_invoke env 1)
          (steps_curIter_obs (fun _ => rfl) (steps_curIter_obs (curIter_invoke env 2)
            (steps_curIter_obs (fun _ => rfl) (curIter_invoke env 3))))) m'
      · rfl
    have hc2 : ∀ m' : M n, (Act.obsScatterDone env (r.ref.map Prod.fst) (r.ref.map Prod.snd) m').1.opt.curIter =
        m'.opt.curIter := by
      unfold Act.obsScatterDone
      exact steps_curIter_obs (fun _ => rfl) (steps_curIter_obs (curIter_invoke env 4) (fun _ => rfl))
    -- the common prefix up to the first local search
    have hpre := (Sim.log (E := E) (o := o) (e := .scatter r.evals) rfl).seq (hfirst.seq
      ((Sim.obsScatterDone hA (r.ref.map Prod.fst) (r.ref.map Prod.snd)).seq
        (Sim.stage1Local hA r.best (r.ref.map Prod.fst))))
    have hcp : ∀ m' : M n, ((Act.log (.scatter r.evals) ;;
        (if m.opt.tracks1 = true then Act.obsScatter env r else Act.skip) ;;
        Act.obsScatterDone env (r.ref.map Prod.fst) (r.ref.map Prod.snd) ;;
        Act.stage1Local env r.best (r.ref.map Prod.fst)) m').1.opt.curIter = m'.opt.curIter :=
      steps_curIter_obs (fun _ => rfl) (steps_curIter_obs hc1 (steps_curIter_obs hc2
        (curIter_stage1Local env _ _)))
    have hassoc : ∀ (a b c d k : Act n) (m : M n),
        (a ;; b ;; c ;; d ;; k) m = ((a ;; b ;; c ;; d) ;; k) m := by
      intro a b c d k m
      simp only [Act.seq_def]
      split <;> (try split) <;> (try split) <;> (try split) <;> simp_all
    rw [hassoc, hassoc]
    obtain ⟨g1, g2⟩ := hpre m hm
    have g3 := hcp m
    have hsplit : ∀ (a k : Act n) (m : M n), (a ;; k) m =
        if (a m).2 = .cont then k (a m).1 else a m := Act.seq_def
    rw [hsplit (Act.log (.scatter r.evals) ;;
        (if m.opt.tracks1 = true then Act.obsScatter env r else Act.skip) ;;
        Act.obsScatterDone env (r.ref.map Prod.fst) (r.ref.map Prod.snd) ;;
        Act.stage1Local env r.best (r.ref.map Prod.fst)),
      hsplit (Act.log (.scatter r.evals) ;;
        (if (E.st m).opt.tracks1 = true then Act.obsScatter env' r else Act.skip) ;;
        Act.obsScatterDone env' (r.ref.map Prod.fst) (r.ref.map Prod.snd) ;;
        Act.stage1Local env' r.best (r.ref.map Prod.fst)), g1]
    dsimp only
    generalize (Act.log (.scatter r.evals) ;;
        (if m.opt.tracks1 = true then Act.obsScatter env r else Act.skip) ;;
        Act.obsScatterDone env (r.ref.map Prod.fst) (r.ref.map Prod.snd) ;;
        Act.stage1Local env r.best (r.ref.map Prod.fst)) m = res at *
    by_cases hcc : res.2 = .cont
    · rw [if_pos hcc, if_pos ((E.out_cont _).2 hcc), Act.seq_def, Act.seq_def]
      dsimp only
      rw [if_pos rfl, if_pos rfl]
      exact sim_stage2 hA false _ _ { res.1 with uc := 0 } ⟨g2.cfg, g2.freq⟩
        (fun _ => by
          show res.1.opt.curIter = _
          rw [g3]; exact hc)
    · rw [if_neg hcc, if_neg (fun h => hcc ((E.out_cont _).1 h))]
      exact ⟨rfl, g2⟩

theorem sim_resumed (hA : Agree E env env' o) (m : M n) (hm : Good E o m) :
    Act.body env' true (E.st m) =
      (E.st (Act.body env true m).1, E.out (Act.body env true m).2) ∧
    Good E o (Act.body env true m).1 := by
  unfold Act.body
  rw [if_pos rfl, if_pos rfl]
  exact sim_stage2 hA true _ none { m with uc := m.opt.unchanged } ⟨hm.cfg, hm.freq⟩
    (fun h => by cases h)

/-- `finish` commutes with the simulation. -/
theorem finish_sim (r : M n × Out) : finish (E.st r.1, E.out r.2) =
    ⟨E.st (finish r).final, E.res (finish r).result⟩ := by
  obtain ⟨m, out⟩ := r
  cases out with
  | fail e => rfl
  | cont =>
    unfold finish Er.out
    dsimp only
    rw [show (E.st m).opt.solset = m.opt.solset from rfl]
    cases m.opt.solset <;> rfl
  | stop =>
    unfold finish Er.out
    dsimp only
    rw [show (E.st m).opt.solset = m.opt.solset from rfl]
    cases m.opt.solset <;> rfl

theorem Er.tryResume (x : Opt n) (loaded : Option (Except CkErr (Ckpt n))) :
    (E.opt x).tryResume (loaded.map (Except.map E.ckpt)) =
      (x.tryResume loaded).map fun r => (E.opt r.1, r.2) := by
  unfold Opt.tryResume
  rw [show (E.opt x).ckpt = x.ckpt from rfl]
  cases x.ckpt with
  | none => rfl
  | some cfg =>
    dsimp only
    split
    · cases loaded with
      | none => rfl
      | some l => cases l <;> rfl
    · rfl

theorem Er.started (hA : E.noObs = false → env'.time = env.time) (x : Opt n) :
    started env' (E.opt x) = E.opt (started env x) := by
  unfold GS.started
  rw [Er.opt_mapObs]
  cases hn : E.noObs with
  | false => rw [hA hn]
  | true => rw [Er.opt_mapObs_none hn, Er.opt_mapObs_none hn]

/-- Two runs that agree on everything that should matter have matching final states and results. -/
theorem run_sim {loaded : Option (Except CkErr (Ckpt n))}
    (hA : ∀ o1 r, startOpt env o loaded = .ok (o1, r) → Agree E env env' o1)
    (ht : E.noObs = false → env'.time = env.time)
    (hf : E.noObs = true → ∀ b, o.obs = some b → 0 < b.frequency) :
    run env' (E.opt o) (loaded.map (Except.map E.ckpt)) =
      ⟨E.st (run env o loaded).final, E.res (run env o loaded).result⟩ := by
  have hs : ∀ (env : Env n) (o : Opt n), (Act.obsStart env ⟨o, 0, 0, []⟩).1 =
    (⟨GS.started env o, 0, 0, []⟩ : M n) := fun _ _ => rfl
  unfold startOpt at hA
  unfold run
  dsimp only
  rw [hs] at hA
  rw [hs, hs, Er.started ht]
  dsimp only at hA ⊢
  rw [Er.tryResume]
  have hfreq : E.noObs = true → ∀ b, (GS.started env o).obs = some b → 0 < b.frequency := by
    intro hn b hb
    have hb : o.obs.map _ = some b := hb
    rw [Option.map_eq_some_iff] at hb
    obtain ⟨b0, h0, rfl⟩ := hb
    have hst : ∀ t, (b0.startTimer t).frequency = b0.frequency := by
      intro t; unfold Obs.startTimer; split <;> rfl
    rw [Obs.upd1_frequency, hst]
    exact hf hn b0 h0
  cases htr : (GS.started env o).tryResume loaded with
  | error e =>
    show RunResult.mk _ _ = RunResult.mk _ _
    have he : E.err e = e := by
      unfold Opt.tryResume at htr
      (repeat' split at htr) <;> cases htr
      rfl
    show _ = RunResult.mk _ (Except.error (E.err e))
    rw [he]; rfl
  | ok q =>
    obtain ⟨o1, r⟩ := q
    have hA1 := hA o1 r htr
    have ho1 : o1.obs = (GS.started env o).obs := by
      unfold Opt.tryResume at htr
      (repeat' split at htr) <;> cases htr <;> rfl
    have hg : Good E o1 (⟨o1, 0, 0, []⟩ : M n) :=
      ⟨SameCfg.refl _, fun hn b hb => hfreq hn b (ho1 ▸ hb)⟩
    have hbody : Act.body env' r (E.st ⟨o1, 0, 0, []⟩) =
        (E.st (Act.body env r ⟨o1, 0, 0, []⟩).1, E.out (Act.body env r ⟨o1, 0, 0, []⟩).2) := by
      cases r with
      | true => exact (sim_resumed hA1 _ hg).1
      | false => exact (sim_fresh hA1 _ hg rfl).1
    have hst : (E.st (⟨o1, 0, 0, []⟩ : M n)) = ⟨E.opt o1, 0, 0, []⟩ := rfl
    rw [hst] at hbody
    have hfin : ∀ (x : M n × Out), (match x with
        | (m, .fail e) => (⟨m, .error e⟩ : RunResult n)
        | (m, _) => match m.opt.solset with
          | some set => ⟨m, .ok set⟩
          | none => ⟨m, .error (.noFeasibleSolution 0)⟩) = finish x := fun _ => rfl
    show finish (Act.body env' r ⟨E.opt o1, 0, 0, []⟩) =
      ⟨E.st (finish (Act.body env r ⟨o1, 0, 0, []⟩)).final,
        E.res (finish (Act.body env r ⟨o1, 0, 0, []⟩)).result⟩
    rw [hbody, finish_sim]

/-- With nothing changed the simulation relates equal states. -/
theorem Er.st_id (hn : E.noObs = false) (hb : E.batch = id) (hl : E.lerr = id) (ht : E.time = id)
    (m : M n) : E.st m = m := by
  obtain ⟨x, u, s, t⟩ := m
  unfold Er.st Er.opt
  rw [hn, hb, ht]
  have : E.event (n := n) = fun e => some e := by
    funext e
    cases e <;> simp only [Er.event, hn] <;> try rfl
    · unfold Er.lres
      rw [hl]
      split <;> rfl
    · unfold Er.ckpt; rw [hb]; rfl
    · unfold Er.ckpt; rw [hb]; rfl
  rw [this]
  simp

end GS
