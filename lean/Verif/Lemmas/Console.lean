/- What the built-in callbacks print during a run. -/
import Verif.Model.Console
import Verif.Lemmas.ShownIter
import Verif.Lemmas.Tally
import Verif.Lemmas.Reduce

namespace GS
open F64
variable {n : Nat}

theorem console_append (a b : List (Event n)) : console (a ++ b) = console a ++ console b :=
  List.flatMap_append

theorem console_none (t : List (Event n)) (h : ∀ e ∈ t, ∀ k b w, e ≠ .callback k b w) : console t = [] := by
  unfold console
  rw [List.flatMap_eq_nil_iff]
  intro e he
  cases e with
  | callback k b w => exact absurd rfl (h _ he k b w)
  | _ => rfl

/-- Only callbacks print. -/
theorem console_cbs (t : List (Event n)) :
    console t = (cbs t).flatMap fun x => Event.printed (.callback x.1 x.2.1 x.2.2) := by
  induction t with
  | nil => rfl
  | cons e t ih =>
    rw [show e :: t = [e] ++ t from rfl, console_append, cbs_append, List.flatMap_append, ih]
    congr 1
    cases e <;> rfl

/-! ### Stage 1 -/

/-- An observer that tracks stage 1 with a built-in callback that reports it, before the end of stage 1. -/
structure Chatty (b : Obs n) : Prop where
  mode : b.mode ≠ .stage2Only
  open1 : b.stage1Completed = false
  closed2 : b.stage2Started = false
  callback : b.callback = some defaultCb ∨ b.callback = some stage1Cb

/-- During stage 1: the observer is `b0` with the stage-1 numbers `s`, and `c` was printed. -/
structure Says (b0 : Obs n) (s : Stage1 n) (c : List (Obs.Line n)) (m : M n) : Prop where
  obs : ∃ x, x.isSome = b0.stage2.isSome ∧ m.opt.obs = some { b0 with stage1 := some s, stage2 := x }
  out : console m.trace = c
  early : ∀ e ∈ m.trace, e.early = true

theorem builtin_stage1 {b : Obs n} {s : Stage1 n} {id : Nat} (hb : Chatty b) (hs : b.stage1 = some s)
    (hid : b.callback = some id) : b.builtin id = (b, (Obs.stage1Line s).toList) := by
  have h1 : b.getStage1 = some s := by unfold Obs.getStage1; rw [hb.open1, hs]; rfl
  have h2 : b.getStage2 = none := by unfold Obs.getStage2; rw [hb.closed2]; rfl
  have hd : b.defaultCallback = (b, (Obs.stage1Line s).toList) := by
    unfold Obs.defaultCallback
    rw [h1]
    dsimp only
    unfold Obs.defaultStage2
    rw [h2]
    cases Obs.stage1Line s <;> rfl
  have hs1 : b.stage1Callback = (b, (Obs.stage1Line s).toList) := by
    unfold Obs.stage1Callback
    rw [h1]
  rcases hb.callback with h | h
  · rw [hid] at h
    cases h
    exact hd
  · rw [hid] at h
    cases h
    exact hs1

theorem Chatty.with {b0 : Obs n} (hb : Chatty b0) (x : Option (Stage1 n)) (y : Option (Stage2 n)) :
    Chatty ({ b0 with stage1 := x, stage2 := y } : Obs n) := ⟨hb.mode, hb.open1, hb.closed2, hb.callback⟩

namespace Says
variable {env : Env n} {b0 : Obs n} {s : Stage1 n} {c : List (Obs.Line n)} {m : M n}

theorem upd1 (hb : Chatty b0) (f : Stage1 n → Stage1 n) (h : Says b0 s c m) :
    Says b0 (f s) c (Act.modify (fun o => o.mapObs fun b => b.upd1 f) m).1 := by
  obtain ⟨⟨x, hx, ho⟩, hc, he⟩ := h
  refine ⟨⟨x, hx, ?_⟩, hc, he⟩
  dsimp only [Act.modify, Opt.mapObs]
  rw [ho, Option.map_some]
  congr 1
  unfold Obs.upd1
  rw [if_pos]
  · rfl
  · rw [should1_iff]
    unfold Obs.seen1
    rw [if_neg hb.mode]
    rfl

theorem invoke (hE : BuiltIn env) (hb : Chatty b0) {k : Nat} (hk : k < 16) (h : Says b0 s c m) :
    Says b0 s (c ++ (Obs.stage1Line s).toList) (Act.invoke env k m).1 := by
  obtain ⟨⟨x, hx, ho⟩, hc, he⟩ := h
  have hb' := hb.with (some s) x
  have hs' : Obs.stage1 { b0 with stage1 := some s, stage2 := x } = some s := rfl
  obtain ⟨id, hid, hle⟩ : ∃ id, Obs.callback { b0 with stage1 := some s, stage2 := x } = some id ∧
      id ≤ stage2Cb := by
    rcases hb.callback with h | h
    · exact ⟨_, h, by decide⟩
    · exact ⟨_, h, by decide⟩
  unfold Act.invoke
  refine ⟨?_, ?_, ?_⟩
  · refine ⟨x, hx, ?_⟩
    rw [ho]
    dsimp only
    generalize ({ b0 with stage1 := some s, stage2 := x } : Obs n) = b at *
    unfold Obs.invoke
    rw [hid]
    dsimp only
    rw [hE _ _ _ hle, builtin_stage1 hb' hs' hid]
  · rw [ho]
    generalize ({ b0 with stage1 := some s, stage2 := x } : Obs n) = b at *
    dsimp only
    rw [if_pos (by rw [hid]; rfl), console_append, hc]
    congr 1
    unfold console
    rw [List.flatMap_cons, List.flatMap_nil, List.append_nil]
    unfold Event.printed
    dsimp only
    rw [hid]
    dsimp only
    rw [builtin_stage1 hb' hs' hid]
  · rw [ho]
    dsimp only
    split
    · intro e hm
      rcases List.mem_append.1 hm with hm | hm
      · exact he e hm
      · rw [List.mem_singleton] at hm
        subst hm
        simpa [Event.early] using hk
    · exact he

theorem logged (e : Event n) (hp : e.printed = []) (hl : e.early = true) (h : Says b0 s c m) :
    Says b0 s c { m with trace := m.trace ++ [e] } := by
  refine ⟨h.obs, ?_, fun e' he => ?_⟩
  · show console (m.trace ++ [e]) = c
    rw [console_append, h.out]
    simp [console, hp]
  · rcases List.mem_append.1 he with he | he
    · exact h.early e' he
    · rw [List.mem_singleton] at he
      rw [he]; exact hl

theorem stored (ref : List (Pt n)) (h : Says b0 s c m) : Says b0 s c (Act.storeRef ref m).1 :=
  ⟨h.obs, h.out, h.early⟩

theorem threshold (v : F64) (h : Says b0 s c m) : Says b0 s c (Act.setThreshold v m).1 :=
  ⟨h.obs, h.out, h.early⟩

theorem proc (x : Sol n) (h : Says b0 s c m) : Says b0 s c
    { m with opt := (m.opt.process x).1, trace := m.trace ++ [.processed x (m.opt.process x).2] } := by
  obtain ⟨⟨y, hy, ho⟩, hc, he⟩ := h
  obtain ⟨g, hg, hg'⟩ := process_obs m.opt x
  refine ⟨?_, ?_, fun e' hm => ?_⟩
  · dsimp only
    rw [hg, ho, Option.map_some]
    rcases hg' with rfl | rfl
    · exact ⟨y, hy, rfl⟩
    · exact ⟨_, by rw [Option.isSome_map]; exact hy, rfl⟩
  · dsimp only
    rw [console_append, hc]
    simp [console, Event.printed]
  · rcases List.mem_append.1 hm with hm | hm
    · exact he e' hm
    · rw [List.mem_singleton] at hm
      rw [hm]; rfl

end Says

theorem enter_fields (s : Stage1 n) (x : Substage) (t : Nat) :
    ∃ y, s.enterSubstage x t = { s with substage := x, substageStart := some t, substageTime := y } := by
  unfold Stage1.enterSubstage
  dsimp only
  split
  · exact ⟨_, rfl⟩
  · exact ⟨s.substageTime, rfl⟩

/-- Scatter search, for an observer attached to it. -/
theorem says_scatter {env : Env n} (hE : BuiltIn env) {b0 : Obs n} (hb : Chatty b0) {s : Stage1 n}
    {c : List (Obs.Line n)} {m : M n} (r : Scatter.Result n) (h : Says b0 s c m) :
    ∃ s', Says b0 s' (c ++ [.initialized s.functionEvaluations, .diversified r.initLen,
        .intensified (s.trialPoints + r.trialLen) r.finalLen]) (Act.obsScatter env r m).1 ∧
      s'.functionEvaluations = s.functionEvaluations + r.initLen ∧ s'.bestObjective = s.bestObjective ∧
      s'.bestPoint = s.bestPoint := by
  unfold Act.obsScatter
  simp only [Act.seq_def, show ∀ f (m : M n), (Act.modify (n := n) f m).2 = .cont from fun _ _ => rfl,
    invoke_out, if_true]
  have h1 := (h.upd1 hb fun s => (s.enterSubstage .initializationComplete (env.time 1)).setRefSetSize 3).invoke
    hE hb (k := 1) (by decide)
  have h2 := (h1.upd1 hb fun s => ((s.enterSubstage .diversificationComplete (env.time 2)).setRefSetSize
    r.initLen).addEvals r.initLen).invoke hE hb (k := 2) (by decide)
  have h3 := (h2.upd1 hb fun s => ((s.enterSubstage .intensificationComplete (env.time 3)).addTrialPoints
    r.trialLen).setRefSetSize r.finalLen).invoke hE hb (k := 3) (by decide)
  refine ⟨_, ⟨h3.obs, h3.out.trans ?_, h3.early⟩, ?_⟩
  · obtain ⟨y1, e1⟩ := enter_fields s .initializationComplete (env.time 1)
    rw [e1]
    obtain ⟨y2, e2⟩ := enter_fields ({ s with
      substage := .initializationComplete, substageStart := some (env.time 1), substageTime := y1 }.setRefSetSize 3)
      .diversificationComplete (env.time 2)
    rw [e2]
    generalize hs2 : (Stage1.addEvals (Stage1.setRefSetSize _ r.initLen) r.initLen) = s2
    obtain ⟨y3, e3⟩ := enter_fields s2 .intensificationComplete (env.time 3)
    rw [e3]
    subst hs2
    simp only [List.append_assoc]
    rfl
  · obtain ⟨y1, e1⟩ := enter_fields s .initializationComplete (env.time 1)
    rw [e1]
    obtain ⟨y2, e2⟩ := enter_fields ({ s with
      substage := .initializationComplete, substageStart := some (env.time 1), substageTime := y1 }.setRefSetSize 3)
      .diversificationComplete (env.time 2)
    rw [e2]
    generalize hs2 : (Stage1.addEvals (Stage1.setRefSetSize _ r.initLen) r.initLen) = s2
    obtain ⟨y3, e3⟩ := enter_fields s2 .intensificationComplete (env.time 3)
    rw [e3]
    subst hs2
    exact ⟨rfl, rfl, rfl⟩

/-- After scatter search. -/
theorem says_done {env : Env n} (hE : BuiltIn env) {b0 : Obs n} (hb : Chatty b0) {s : Stage1 n}
    {c : List (Obs.Line n)} {m : M n} (ref : List (Pt n)) (objs : List F64) {p : Pt n} {v : F64}
    (hmin : reduceSeq (minOp Prod.snd) (ref.zip objs) = some (p, v)) (hn : s.bestObjective.isNaN = true)
    (h : Says b0 s c m) :
    ∃ s', Says b0 s' (c ++ [.scattered v (some p)]) (Act.obsScatterDone env ref objs m).1 ∧
      s'.functionEvaluations = s.functionEvaluations ∧ s'.bestObjective = v ∧ s'.bestPoint = some p := by
  unfold Act.obsScatterDone
  simp only [Act.seq_def, show ∀ f (m : M n), (Act.modify (n := n) f m).2 = .cont from fun _ _ => rfl,
    invoke_out, if_true, hmin]
  have h1 := (h.upd1 hb fun s => ((s.enterSubstage .scatterSearchComplete (env.time 4)).setRefSetSize
    ref.length).setBest v p).invoke hE hb (k := 4) (by decide)
  have h2 := h1.upd1 hb fun s => s.enterSubstage .localOptimization (env.time 5)
  obtain ⟨y1, e1⟩ := enter_fields s .scatterSearchComplete (env.time 4)
  have hsb : (((s.enterSubstage .scatterSearchComplete (env.time 4)).setRefSetSize ref.length).setBest v p) =
      { (s.enterSubstage .scatterSearchComplete (env.time 4)).setRefSetSize ref.length with
        bestObjective := v, bestPoint := some p } := by
    unfold Stage1.setBest
    rw [if_pos]
    rw [e1]
    show (s.bestObjective.isNaN || _) = true
    rw [hn, Bool.true_or]
  refine ⟨_, ⟨h2.obs, h2.out.trans ?_, h2.early⟩, ?_⟩
  · rw [hsb, e1]; rfl
  · rw [hsb, e1]
    generalize hs2 : (Stage1.mk _ v (some p) _ _ _ _ _ _ _ : Stage1 n) = s2
    obtain ⟨y3, e3⟩ := enter_fields s2 .localOptimization (env.time 5)
    rw [e3]
    subst hs2
    exact ⟨rfl, rfl, rfl⟩

/-- After the local search of stage 1. -/
theorem says_local1 {env : Env n} (hE : BuiltIn env) {b0 : Obs n} (hb : Chatty b0) {s : Stage1 n}
    {c : List (Obs.Line n)} {m : M n} (x : Sol n) (k : Nat) (h : Says b0 s c m) :
    ∃ s', Says b0 s' (c ++ [if (s.bestObjective.isNaN || F64.lt x.objective s.bestObjective) = true then
          .optimized x.objective (some x.point) (s.functionEvaluations + k)
        else .optimized s.bestObjective s.bestPoint (s.functionEvaluations + k)]) (Act.obsLocal1 env x k m).1 := by
  unfold Act.obsLocal1
  simp only [Act.seq_def, show ∀ f (m : M n), (Act.modify (n := n) f m).2 = .cont from fun _ _ => rfl,
    if_true]
  have h1 := (h.upd1 hb fun st => ((st.enterSubstage .localOptimizationComplete (env.time 6)).setBest x.objective
    x.point).addEvals k).invoke hE hb (k := 6) (by decide)
  refine ⟨_, ⟨h1.obs, h1.out.trans ?_, h1.early⟩⟩
  congr 1
  obtain ⟨y1, e1⟩ := enter_fields s .localOptimizationComplete (env.time 6)
  rw [e1]
  unfold Stage1.setBest
  dsimp only
  split <;> rfl

/-- The end of stage 1: the observer is `b0` with completed stage 1, nothing more is printed. -/
theorem says_end1 {env : Env n} (hE : BuiltIn env) {b0 : Obs n} (hb : Chatty b0) {s : Stage1 n}
    {c : List (Obs.Line n)} {m : M n} (h : Says b0 s c m) :
    ∃ s', (∃ x, x.isSome = b0.stage2.isSome ∧ (Act.obsEnd1 env m).1.opt.obs =
        some { b0 with stage1 := some s', stage2 := x, stage1Completed := true }) ∧
      console (Act.obsEnd1 env m).1.trace = c ∧ ∀ e ∈ (Act.obsEnd1 env m).1.trace, e.early = true := by
  unfold Act.obsEnd1
  simp only [Act.seq_def, show ∀ f (m : M n), (Act.modify (n := n) f m).2 = .cont from fun _ _ => rfl,
    invoke_out, if_true]
  have h1 := (h.upd1 hb fun s => (s.enterSubstage .stage1Complete (env.time 7)).finish (env.time 8)).invoke hE hb (k := 7) (by decide)
  obtain ⟨⟨x, hx, ho⟩, hc, he⟩ := h1
  refine ⟨((s.enterSubstage .stage1Complete (env.time 7)).finish (env.time 8)), ⟨x, hx, ?_⟩, hc.trans ?_, he⟩
  · dsimp only [Act.modify, Opt.mapObs]
    dsimp only [Act.modify, Opt.mapObs] at ho
    rw [ho, Option.map_some]
    rfl
  · obtain ⟨y1, e1⟩ := enter_fields s .stage1Complete (env.time 7)
    rw [e1]
    unfold Stage1.finish
    cases s.stageStart <;> exact List.append_nil _

/-- The lines of stage 1 of a new observer. -/
def stage1Lines (r : Scatter.Result n) (p : Pt n) (v : F64) (x : Sol n) (k : Nat) : List (Obs.Line n) :=
  [.initialized 0, .diversified r.initLen, .intensified r.trialLen r.finalLen, .scattered v (some p),
    if (v.isNaN || F64.lt x.objective v) = true then .optimized x.objective (some x.point) (r.initLen + k)
    else .optimized v (some p) (r.initLen + k)]

theorem says_local {env : Env n} (hE : BuiltIn env) {b0 : Obs n} (hb : Chatty b0) {s : Stage1 n}
    {c : List (Obs.Line n)} {m : M n} (q : Pt n) (ref : List (Pt n))
    (h : Says b0 s c m) (ht1 : m.opt.tracks1 = true)
    (hf : ∀ e, (Act.stage1Local env q ref m).2 ≠ .fail e) :
    ∃ x k s', env.solve m.opt.lsType m.opt.lsConfig q = .ok (x, k) ∧
      (∃ y, y.isSome = b0.stage2.isSome ∧ (Act.stage1Local env q ref m).1.opt.obs =
        some { b0 with stage1 := some s', stage2 := y, stage1Completed := true }) ∧
      (∀ e ∈ (Act.stage1Local env q ref m).1.trace, e.early = true) ∧
      console (Act.stage1Local env q ref m).1.trace = c ++ [if (s.bestObjective.isNaN || F64.lt x.objective s.bestObjective) = true then
          .optimized x.objective (some x.point) (s.functionEvaluations + k)
        else .optimized s.bestObjective s.bestPoint (s.functionEvaluations + k)] := by
  unfold Act.stage1Local at hf ⊢
  cases hs : env.solve m.opt.lsType m.opt.lsConfig q with
  | error e => rw [hs] at hf; exact absurd rfl (hf _)
  | ok r =>
    obtain ⟨x, k⟩ := r
    rw [hs] at hf
    dsimp only at hf ⊢
    rw [ht1] at hf ⊢
    simp only [if_true] at hf ⊢
    have h0 := h.logged (.search none q (.ok x)) rfl rfl
    generalize ({ m with trace := m.trace ++ [.search none q (.ok x)] } : M n) = m0 at *
    rw [Act.seq_def, show (Act.setThreshold (n := n) x.objective m0).2 = .cont from rfl, if_pos rfl] at hf ⊢
    have h1 : Says b0 s c (Act.setThreshold x.objective m0).1 := h0.threshold _
    generalize (Act.setThreshold x.objective m0).1 = m1 at *
    rw [Act.seq_def, local1_out, if_pos rfl] at hf ⊢
    obtain ⟨s2, h2⟩ := says_local1 hE hb x k h1
    generalize (Act.obsLocal1 env x k m1).1 = m2 at *
    unfold Act.process at hf ⊢
    dsimp only at hf ⊢
    have h3 := h2.proc x
    by_cases hv : (m2.opt.process x).2 = .panic
    · rw [if_pos hv] at hf
      exact absurd rfl (hf _)
    · rw [if_neg hv]
      split
      · rw [Act.seq_def, end1_out, if_pos rfl]
        obtain ⟨s4, h4, h5, h6⟩ := says_end1 hE hb h3
        exact ⟨x, k, s4, rfl, h4, h6, h5⟩
      · rw [Act.seq_def, show ∀ m3, (Act.storeRef (n := n) ref m3).2 = .cont from fun _ => rfl, if_pos rfl]
        obtain ⟨s4, h4, h5, h6⟩ := says_end1 hE hb (Says.stored ref h3)
        exact ⟨x, k, s4, rfl, h4, h6, h5⟩

theorem zip_fst_snd {α β : Type} (l : List (α × β)) : (l.map Prod.fst).zip (l.map Prod.snd) = l := by
  rw [List.zip_map']
  simp

/-- Stage 1 of a run that does not fail, watched by an observer that is new to stage 1. -/
theorem body_fresh_says {env : Env n} (hE : BuiltIn env) {b0 : Obs n} (hb : Chatty b0) {s : Stage1 n}
    {m : M n} (hs0 : s.functionEvaluations = 0) (hs1 : s.trialPoints = 0) (hs2 : s.bestObjective.isNaN = true)
    (h : Says b0 s [] m) (hne : ∀ r, Act.scatter env m.opt = .ok r → r.ref ≠ [])
    (hf : ∀ e, (Act.body env false m).2 ≠ .fail e) :
    ∃ r p v x k m4 s4, Act.scatter env m.opt = .ok r ∧
      reduceSeq (minOp Prod.snd) r.ref = some (p, v) ∧
      env.solve m.opt.lsType m.opt.lsConfig r.best = .ok (x, k) ∧
      (∃ y, y.isSome = b0.stage2.isSome ∧ m4.opt.obs = some { b0 with stage1 := some s4, stage2 := y, stage1Completed := true }) ∧
      console m4.trace = stage1Lines r p v x k ∧ (∀ e ∈ m4.trace, e.early = true) ∧
      (Act.body env false m = (m4, .stop) ∨ ∃ ref objs sd,
        Act.body env false m = Act.stage2Main env false 0 ref objs (enter2 env sd m4)) := by
  unfold Act.body at hf ⊢
  simp only [Bool.false_eq_true, if_false] at hf ⊢
  unfold Act.stage1 at hf ⊢
  cases hr : Act.scatter env m.opt with
  | error e => rw [hr] at hf; exact absurd rfl (hf e)
  | ok r =>
    have hne := hne r hr
    rw [hr] at hf
    dsimp only at hf ⊢
    have ht1 : m.opt.tracks1 = true := by
      obtain ⟨x, _, hx⟩ := h.obs
      unfold Opt.tracks1
      rw [hx]
      simp only [Option.map_some, Option.getD_some, should1_iff]
      unfold Obs.seen1
      rw [if_neg hb.mode]; rfl
    rw [ht1] at hf ⊢
    simp only [if_true] at hf ⊢
    rw [Act.seq_def, show (Act.log (n := n) (.scatter r.evals) m).2 = .cont from rfl, if_pos rfl] at hf ⊢
    have h1 : Says b0 s [] (Act.log (.scatter r.evals) m).1 := h.logged _ rfl rfl
    have ho1 : SameCfg m.opt (Act.log (.scatter r.evals) m).1.opt := SameCfg.refl _
    generalize (Act.log (.scatter r.evals) m).1 = m1 at *
    rw [Act.seq_def, scatter_out, if_pos rfl] at hf ⊢
    obtain ⟨s2, h2, f1, f2, f3⟩ := says_scatter hE hb r h1
    have ho2 : SameCfg m.opt (Act.obsScatter env r m1).1.opt := ho1.trans ((Steps.obsScatter env r) m1).cfg
    generalize (Act.obsScatter env r m1).1 = m2 at *
    rw [Act.seq_def, done_out, if_pos rfl] at hf ⊢
    obtain ⟨⟨p, v⟩, hpv⟩ := reduceSeq_isSome (minOp Prod.snd) hne
    obtain ⟨s3, h3, g1, g2, g3⟩ := says_done hE hb (r.ref.map Prod.fst) (r.ref.map Prod.snd)
      (by rw [zip_fst_snd]; exact hpv) (by rw [f2]; exact hs2) h2
    have ho3 : SameCfg m.opt (Act.obsScatterDone env (r.ref.map Prod.fst) (r.ref.map Prod.snd) m2).1.opt :=
      ho2.trans ((Steps.obsScatterDone env _ _) m2).cfg
    generalize (Act.obsScatterDone env (r.ref.map Prod.fst) (r.ref.map Prod.snd) m2).1 = m3 at *
    have hnf : ∀ e, (Act.stage1Local env r.best (r.ref.map Prod.fst) m3).2 ≠ .fail e := by
      intro e he
      rw [Act.seq_def, he, if_neg (by simp)] at hf
      exact hf e he
    have ht3 : m3.opt.tracks1 = true := by
      obtain ⟨x, _, hx⟩ := h3.obs
      unfold Opt.tracks1
      rw [hx]
      simp only [Option.map_some, Option.getD_some, should1_iff]
      unfold Obs.seen1
      rw [if_neg hb.mode]; rfl
    obtain ⟨x, k, s4, j1, j2, j4, j3⟩ := says_local hE hb r.best (r.ref.map Prod.fst) h3 ht3 hnf
    rw [ho3.lsType, ho3.lsConfig] at j1
    refine ⟨r, p, v, x, k, (Act.stage1Local env r.best (r.ref.map Prod.fst) m3).1, s4, rfl, hpv, j1, j2, ?_, j4, ?_⟩
    · rw [j3, g2, g3, g1, f1, hs0, hs1]
      unfold stage1Lines
      simp
    cases ho : (Act.stage1Local env r.best (r.ref.map Prod.fst) m3).2 with
    | fail e => exact absurd ho (hnf e)
    | stop =>
      left
      rw [Act.seq_def, ho, if_neg (by simp)]
      rw [← ho]
    | cont =>
      right
      rw [Act.seq_def, ho, if_pos rfl] at hf ⊢
      generalize (Act.stage1Local env r.best (r.ref.map Prod.fst) m3).1 = m4 at *
      rw [Act.seq_def, if_pos rfl] at hf ⊢
      dsimp only at hf ⊢
      unfold Act.stage2 at hf ⊢
      rw [Act.seq_def, show (Act.obsStart2 (n := n) env _).2 = .cont from rfl, if_pos rfl] at hf ⊢
      simp only [Bool.false_eq_true, if_false] at hf ⊢
      cases hsd : Opt.shuffleSeed env
          (Act.obsStart2 env { m4 with uc := 0 }).1.opt.params.seed
          (Act.obsStart2 env { m4 with uc := 0 }).1.opt.curIter with
      | none => rw [hsd] at hf; exact absurd rfl (hf _)
      | some sd =>
        dsimp only
        rw [Act.seq_def, show (Act.setSeed (n := n) sd _).2 = .cont from rfl, if_pos rfl]
        exact ⟨_, _, sd, rfl⟩

/-! ### Stage 2 -/

/-- What stage 2 leaves alone in an observer. -/
def Obs.fixed (b : Obs n) : Obs n := { b with stage2 := none, prev := none }

/-- Stage 2 changes only the stage-2 numbers and what the built-in callbacks remember, also in what callbacks
are shown. -/
def Fixed (m m' : M n) : Prop := ∀ b, m.opt.obs = some b →
  (∃ b', m'.opt.obs = some b' ∧ b'.fixed = b.fixed) ∧
  ∃ l, cbs m'.trace = cbs m.trace ++ l ∧ ∀ x ∈ l, x.2.1.fixed = b.fixed

theorem Fixed.refl (m : M n) : Fixed m m := fun b hb => ⟨⟨b, hb, rfl⟩, [], by simp, by simp⟩

theorem Fixed.trans {a b c : M n} (h : Fixed a b) (k : Fixed b c) : Fixed a c := by
  intro x hx
  obtain ⟨⟨y, hy, h1⟩, l, h2, h3⟩ := h x hx
  obtain ⟨⟨z, hz, k1⟩, u, k2, k3⟩ := k y hy
  refine ⟨⟨z, hz, k1.trans h1⟩, l ++ u, by rw [k2, h2, List.append_assoc], fun e he => ?_⟩
  exact (List.mem_append.1 he).elim (h3 e) fun h => (k3 e h).trans h1

theorem fixed_obs (m m' : M n) (g : Obs n → Obs n) (hm : m'.opt.obs = m.opt.obs.map g)
    (h : ∀ b, (g b).fixed = b.fixed) (ht : cbs m'.trace = cbs m.trace) : Fixed m m' := by
  intro b hb
  rw [hb] at hm
  exact ⟨⟨g b, hm, h b⟩, [], by rw [ht, List.append_nil], by simp⟩

theorem fixed_upd2 (m : M n) (f : Stage2 n → Stage2 n) :
    Fixed m { m with opt := m.opt.mapObs fun b => b.upd2 f } :=
  fixed_obs m _ _ rfl (fun b => by
    obtain ⟨x, hx⟩ := upd2_rest b f
    rw [hx]; rfl) rfl

theorem fixedTrack {env : Env n} (ht : Tame env) : TrackPar env false (Fixed (n := n)) where
  refl := Fixed.refl
  trans := Fixed.trans
  quiet m m' _ ho _ h := by
    obtain ⟨t, h1, h2⟩ := h
    refine fixed_obs m m' id (by rw [ho]; simp) (fun _ => rfl) ?_
    rw [h1, cbs_append, cbs_none t ?_, List.append_nil]
    intro e he k b w hk
    have := h2 e he
    rw [hk] at this; cases this
  iter i m _ := fixed_upd2 m _
  inv k m _ := by
    unfold Act.invoke
    split
    · exact Fixed.refl m
    · rename_i b hb
      obtain ⟨p, hp⟩ := invoke_prev ht k b
      intro x hx
      rw [hb] at hx
      cases hx
      rw [hp]
      refine ⟨⟨_, rfl, rfl⟩, ?_⟩
      dsimp only
      split
      · exact ⟨[(k, b, m.opt.merit.threshold, m.uc)], by rw [cbs_append]; rfl, by simp⟩
      · exact ⟨[], by simp, by simp⟩
  end2 m _ := fixed_upd2 m _
  work m es h := by
    refine fixed_obs m _ id (by simp) (fun _ => rfl) ?_
    dsimp only
    rw [cbs_append, cbs_none es ?_, List.append_nil]
    intro e he k b w hk
    have := h e he
    rw [hk] at this; cases this
  evals k m _ := fixed_upd2 m _
  proc s k m _ := by
    unfold Act.process
    dsimp only
    have h1 : Fixed m
        { m with opt := (m.opt.process s).1, trace := m.trace ++ [.processed s (m.opt.process s).2] } := by
      obtain ⟨g, hg, hg'⟩ := process_obs m.opt s
      refine fixed_obs m _ g hg (fun b => ?_) (by
        dsimp only
        rw [cbs_append, cbs_none [_] (by simp), List.append_nil])
      rcases hg' with rfl | rfl <;> rfl
    split
    · exact h1
    · exact Fixed.trans h1 (fixed_upd2 _ _)

theorem fixed_start2 (env : Env n) (m : M n) (b : Obs n) (h : m.opt.obs = some b) :
    ∃ b', (Act.obsStart2 env m).1.opt.obs = some b' ∧ b'.fixed = { b.fixed with stage2Started := true } := by
  unfold Act.obsStart2 Act.modify Opt.mapObs
  dsimp only
  rw [h]
  refine ⟨_, rfl, ?_⟩
  dsimp only
  generalize (fun s : Stage2 n => Stage2.setThreshold _ m.opt.merit.threshold) = f
  obtain ⟨x, hx⟩ := upd2_rest b f
  rw [hx]
  rfl

theorem fixed_enter2 (env : Env n) (sd : Nat) (m : M n) (b : Obs n) (h : m.opt.obs = some b) :
    ∃ b', (enter2 env sd m).opt.obs = some b' ∧ b'.fixed = { b.fixed with stage2Started := true } :=
  fixed_start2 env { m with uc := 0 } b h

end GS
