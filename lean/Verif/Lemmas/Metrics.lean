/- How the observer's numbers follow the events of a run. -/
import Verif.Lemmas.Observed

namespace GS
open F64
variable {n : Nat}

/-- The stage-2 numbers of an observer that is told about stage 2. -/
def Obs.seen2 (b : Obs n) : Option (Stage2 n) := if b.mode = .stage1Only then none else b.stage2
/-- The stage-1 numbers of an observer that is told about stage 1. -/
def Obs.seen1 (b : Obs n) : Option (Stage1 n) := if b.mode = .stage2Only then none else b.stage1

theorem should2_iff (b : Obs n) : b.should2 = b.seen2.isSome := by
  unfold Obs.should2 Obs.seen2
  cases b.mode <;> rfl
theorem should1_iff (b : Obs n) : b.should1 = b.seen1.isSome := by
  unfold Obs.should1 Obs.seen1
  cases b.mode <;> rfl

theorem seen2_upd2 (b : Obs n) (f : Stage2 n → Stage2 n) : (b.upd2 f).seen2 = b.seen2.map f := by
  unfold Obs.upd2
  rw [should2_iff]
  unfold Obs.seen2 Obs.mod2
  by_cases h : b.mode = .stage1Only
  · simp [h]
  · rw [if_neg h]
    cases hs : b.stage2 with
    | none => simp [hs]
    | some s => simp [h]
theorem seen1_upd1 (b : Obs n) (f : Stage1 n → Stage1 n) : (b.upd1 f).seen1 = b.seen1.map f := by
  unfold Obs.upd1
  rw [should1_iff]
  unfold Obs.seen1 Obs.mod1
  by_cases h : b.mode = .stage2Only
  · simp [h]
  · rw [if_neg h]
    cases hs : b.stage1 with
    | none => simp [hs]
    | some s => simp [h]

theorem upd2_rest (b : Obs n) (f : Stage2 n → Stage2 n) : ∃ x, b.upd2 f = { b with stage2 := x } := by
  unfold Obs.upd2 Obs.mod2
  split
  · exact ⟨_, rfl⟩
  · exact ⟨b.stage2, rfl⟩
theorem upd1_rest (b : Obs n) (f : Stage1 n → Stage1 n) : ∃ x, b.upd1 f = { b with stage1 := x } := by
  unfold Obs.upd1 Obs.mod1
  split
  · exact ⟨_, rfl⟩
  · exact ⟨b.stage1, rfl⟩
theorem seen2_upd1 (b : Obs n) (f : Stage1 n → Stage1 n) : (b.upd1 f).seen2 = b.seen2 := by
  obtain ⟨x, h⟩ := upd1_rest b f
  rw [h]; rfl
theorem seen1_upd2 (b : Obs n) (f : Stage2 n → Stage2 n) : (b.upd2 f).seen1 = b.seen1 := by
  obtain ⟨x, h⟩ := upd2_rest b f
  rw [h]; rfl
theorem seen2_mod2 (b : Obs n) (f : Stage2 n → Stage2 n) : (b.mod2 f).seen2 = b.seen2.map f := by
  unfold Obs.seen2 Obs.mod2
  dsimp only
  split <;> rfl

theorem invoke_prev {env : Env n} (ht : Tame env) (k : Nat) (b : Obs n) :
    ∃ p, b.invoke env.cb k = { b with prev := p } := by
  unfold Obs.invoke
  split
  · exact ht _ _ _
  · exact ⟨b.prev, rfl⟩

/-- Number of processed local solutions. -/
def nProc (t : List (Event n)) : Nat := t.countP fun e => match e with
  | .processed .. => true
  | _ => false
/-- Number of processed local solutions reported as improving. -/
def nRet (t : List (Event n)) : Nat := t.countP fun e => match e with
  | .processed _ v => v.returned
  | _ => false
/-- Number of stage-2 local searches. -/
def nSearch (t : List (Event n)) : Nat := t.countP fun e => match e with
  | .search (some _) _ _ => true
  | _ => false
/-- Objective evaluations of a stage-2 event: those reported by the local solver, or one. -/
def workCost (env : Env n) (ty : SolverType) (cfg : SolverConfig) : Event n → Nat
  | .search (some _) p _ => match env.solve ty cfg p with
    | .ok (_, k) => k
    | .error _ => 0
  | .evaluate _ _ => 1
  | _ => 0
/-- Objective evaluations in stage 2. -/
def evalsOf (env : Env n) (ty : SolverType) (cfg : SolverConfig) (t : List (Event n)) : Nat :=
  (t.map (workCost env ty cfg)).sum

theorem nProc_append (a b : List (Event n)) : nProc (a ++ b) = nProc a + nProc b := List.countP_append
theorem nRet_append (a b : List (Event n)) : nRet (a ++ b) = nRet a + nRet b := List.countP_append
theorem nSearch_append (a b : List (Event n)) : nSearch (a ++ b) = nSearch a + nSearch b :=
  List.countP_append
theorem evalsOf_append (env : Env n) (ty : SolverType) (cfg : SolverConfig) (a b : List (Event n)) :
    evalsOf env ty cfg (a ++ b) = evalsOf env ty cfg a + evalsOf env ty cfg b := by
  simp [evalsOf]

theorem idle_zero (t : List (Event n)) (h : ∀ e ∈ t, e.idle = true) :
    nProc t = 0 ∧ nRet t = 0 ∧ nSearch t = 0 ∧ ∀ env ty cfg, evalsOf env ty cfg t = 0 := by
  induction t with
  | nil => exact ⟨rfl, rfl, rfl, fun _ _ _ => rfl⟩
  | cons e t ih =>
    obtain ⟨h1, h2, h3, h4⟩ := ih fun x hx => h x (by simp [hx])
    have he := h e (by simp)
    refine ⟨?_, ?_, ?_, fun env ty cfg => ?_⟩
    · rw [show e :: t = [e] ++ t from rfl, nProc_append, h1]; cases e <;> first | rfl | cases he
    · rw [show e :: t = [e] ++ t from rfl, nRet_append, h2]; cases e <;> first | rfl | cases he
    · rw [show e :: t = [e] ++ t from rfl, nSearch_append, h3]; cases e <;> first | rfl | cases he
    · rw [show e :: t = [e] ++ t from rfl, evalsOf_append, h4]; cases e <;> first | rfl | cases he

theorem work_zero (t : List (Event n)) (h : ∀ e ∈ t, Event.work e = true) : nProc t = 0 ∧ nRet t = 0 := by
  induction t with
  | nil => exact ⟨rfl, rfl⟩
  | cons e t ih =>
    obtain ⟨h1, h2⟩ := ih fun x hx => h x (by simp [hx])
    have he := h e (by simp)
    refine ⟨?_, ?_⟩
    · rw [show e :: t = [e] ++ t from rfl, nProc_append, h1]; cases e <;> first | rfl | cases he
    · rw [show e :: t = [e] ++ t from rfl, nRet_append, h2]; cases e <;> first | rfl | cases he

/-- The stage-2 numbers of the observer of a run. -/
def M.seen2 (m : M n) : Option (Stage2 n) := m.opt.obs.bind Obs.seen2

theorem seen2_tracks {o : Opt n} {s : Stage2 n} (h : o.obs.bind Obs.seen2 = some s) : o.tracks2 = true := by
  unfold Opt.tracks2
  cases ho : o.obs with
  | none => rw [ho] at h; cases h
  | some b =>
    rw [ho] at h
    have h : b.seen2 = some s := h
    simp only [Option.map_some, Option.getD_some, should2_iff, h, Option.isSome_some]

/-- The reported size is that of the solution set, if there is one. -/
def SizeOk (s : Stage2 n) (set : Option (List (Sol n))) : Prop :=
  ∀ l, set = some l → s.solutionSetSize = l.length

/-- Calls are counted as they are processed. -/
def Calls (m m' : M n) : Prop :=
  m'.opt.obs.map Obs.stage2Started = m.opt.obs.map Obs.stage2Started ∧
  ∃ t, m'.trace = m.trace ++ t ∧ ∀ s, m.seen2 = some s → ∃ s', m'.seen2 = some s' ∧
    s'.localCalls = s.localCalls + nProc t ∧ s'.improvedCalls = s.improvedCalls + nRet t ∧
    (SizeOk s m.opt.solset → SizeOk s' m'.opt.solset)

theorem Calls.trans {a b c : M n} (h : Calls a b) (k : Calls b c) : Calls a c := by
  obtain ⟨f1, t, ht, h⟩ := h
  obtain ⟨f2, u, hu, k⟩ := k
  refine ⟨f2.trans f1, t ++ u, by rw [hu, ht, List.append_assoc], fun s hs => ?_⟩
  obtain ⟨s1, h0, h1, h2, h3⟩ := h s hs
  obtain ⟨s2, k0, k1, k2, k3⟩ := k s1 h0
  exact ⟨s2, k0, by rw [nProc_append]; omega, by rw [nRet_append]; omega, fun h => k3 (h3 h)⟩

/-- Changing the observer without touching counts and size. -/
theorem calls_obs (m : M n) (g : Obs n → Obs n) (f : Stage2 n → Stage2 n)
    (hg : ∀ b, (g b).seen2 = b.seen2.map f) (hs : ∀ b, (g b).stage2Started = b.stage2Started)
    (h1 : ∀ s, (f s).localCalls = s.localCalls)
    (h2 : ∀ s, (f s).improvedCalls = s.improvedCalls)
    (h3 : ∀ s, (f s).solutionSetSize = s.solutionSetSize) :
    Calls m { m with opt := m.opt.mapObs g } := by
  refine ⟨?_, [], by simp, fun s hs => ⟨f s, ?_, ?_, ?_, ?_⟩⟩
  · unfold Opt.mapObs
    dsimp only
    cases m.opt.obs with
    | none => rfl
    | some b => exact congrArg some (hs b)
  · unfold M.seen2 Opt.mapObs at *
    dsimp only
    cases ho : m.opt.obs with
    | none => rw [ho] at hs; cases hs
    | some b =>
      rw [ho] at hs
      have hs : b.seen2 = some s := hs
      exact (hg b).trans (by rw [hs]; rfl)
  · rw [h1]; rfl
  · rw [h2]; rfl
  · intro h l hl
    rw [h3]; exact h l hl

theorem calls_quiet (m m' : M n) (ho : m'.opt.obs = m.opt.obs) (hs : m'.opt.solset = m.opt.solset)
    (ht : ∃ t, m'.trace = m.trace ++ t ∧ nProc t = 0 ∧ nRet t = 0) : Calls m m' := by
  obtain ⟨t, ht, h1, h2⟩ := ht
  refine ⟨by rw [ho], t, ht, fun s h => ⟨s, ?_, by rw [h1]; rfl, by rw [h2]; rfl, by rw [hs]; exact id⟩⟩
  unfold M.seen2 at h ⊢
  rw [ho]; exact h

theorem calls_inv {env : Env n} (ht : Tame env) (k : Nat) (m : M n) : Calls m (Act.invoke env k m).1 := by
  unfold Act.invoke
  split
  · exact calls_quiet m m rfl rfl ⟨[], by simp, rfl, rfl⟩
  · rename_i b hb
    obtain ⟨p, hp⟩ := invoke_prev ht k b
    rw [hp]
    refine Calls.trans (b := { m with opt := { m.opt with obs := some { b with prev := p } } }) ?_
      (calls_quiet _ _ rfl rfl ?_)
    · refine ⟨by rw [hb]; rfl, [], by simp, fun s hs => ⟨s, ?_, rfl, rfl, id⟩⟩
      unfold M.seen2 at *
      rw [hb] at hs
      exact hs
    · dsimp only
      split
      · exact ⟨[_], rfl, rfl, rfl⟩
      · exact ⟨[], by simp, rfl, rfl⟩

/-- The observer after a local solution was processed. -/
theorem process_obs (o : Opt n) (s : Sol n) : ∃ g : Obs n → Obs n, (o.process s).1.obs = o.obs.map g ∧
    (g = id ∨ g = fun b => b.mod2 (·.setLastAdded s.point)) := by
  unfold Opt.process
  dsimp only
  split
  · exact ⟨id, by simp, Or.inl rfl⟩
  · dsimp only [Opt.mapObs]
    split <;> split
    · exact ⟨_, rfl, Or.inr rfl⟩
    · exact ⟨_, rfl, Or.inr rfl⟩
    · exact ⟨id, by simp, Or.inl rfl⟩
    · exact ⟨id, by simp, Or.inl rfl⟩

theorem calls_proc (s : Sol n) (k : Nat) :
    Resp true Calls (Act.process s fun v => Act.obsLocal v.returned k) := by
  intro m hf
  unfold Act.process at hf ⊢
  dsimp only at hf ⊢
  by_cases hv : (m.opt.process s).2 = .panic
  · rw [if_pos hv] at hf
    exact absurd rfl (hf rfl _)
  · rw [if_neg hv]
    obtain ⟨g, hg, hg'⟩ := process_obs m.opt s
    unfold Act.obsLocal Act.modify Opt.mapObs
    dsimp only
    have hflag : ∀ b, (g b).stage2Started = b.stage2Started := by
      rcases hg' with rfl | rfl <;> exact fun _ => rfl
    refine ⟨?_, [.processed s (m.opt.process s).2], rfl, fun st hst => ?_⟩
    · rw [hg]
      cases m.opt.obs with
      | none => rfl
      | some b =>
        simp only [Option.map_some, Option.some.injEq]
        obtain ⟨x, hx⟩ := upd2_rest (g b) _
        rw [hx]; exact hflag b
    · unfold M.seen2 at hst ⊢
      dsimp only
      rw [hg]
      cases ho : m.opt.obs with
      | none => rw [ho] at hst; cases hst
      | some b =>
        rw [ho] at hst
        have hst : b.seen2 = some st := hst
        have hgs : ∃ st', (g b).seen2 = some st' ∧ st'.localCalls = st.localCalls ∧
            st'.improvedCalls = st.improvedCalls ∧ st'.solutionSetSize = st.solutionSetSize := by
          rcases hg' with rfl | rfl
          · exact ⟨st, hst, rfl, rfl, rfl⟩
          · exact ⟨st.setLastAdded s.point, by rw [seen2_mod2, hst]; rfl, rfl, rfl, rfl⟩
        obtain ⟨st', h0, h1, h2, h3⟩ := hgs
        simp only [Option.map_some, Option.bind_some, seen2_upd2, h0]
        refine ⟨_, rfl, ?_, ?_, ?_⟩
        · cases (m.opt.process s).1.solset with
          | none =>
            dsimp only [Stage2.addEvals, Stage2.addLocalCall]
            split <;> (dsimp only; rw [h1]; rfl)
          | some set =>
            dsimp only [Stage2.addEvals, Stage2.addLocalCall, Stage2.setSize, Stage2.setBest]
            cases bestSolution set with
            | none => dsimp only; split <;> (dsimp only; rw [h1]; rfl)
            | some best => dsimp only; (repeat' split) <;> (dsimp only; rw [h1]; rfl)
        · have hr : nRet [(.processed s (m.opt.process s).2 : Event n)] =
              if (m.opt.process s).2.returned = true then 1 else 0 := by
            unfold nRet
            rw [List.countP_cons, List.countP_nil]; simp
          rw [hr]
          cases (m.opt.process s).1.solset with
          | none =>
            dsimp only [Stage2.addEvals, Stage2.addLocalCall]
            split <;> (dsimp only; rw [h2]; try rfl)
          | some set =>
            dsimp only [Stage2.addEvals, Stage2.addLocalCall, Stage2.setSize, Stage2.setBest]
            cases bestSolution set with
            | none => dsimp only; split <;> (dsimp only; rw [h2]; try rfl)
            | some best => dsimp only; (repeat' split) <;> (dsimp only; rw [h2]; try rfl)
        · intro _ l hl
          rw [hl]
          rfl

/-- Calls are counted right in stage 2, sequential or not. -/
theorem callsTrack {env : Env n} (ht : Tame env) : TrackPar env true (Calls (n := n)) where
  refl m := calls_quiet m m rfl rfl ⟨[], by simp, rfl, rfl⟩
  trans := Calls.trans
  quiet m m' _ ho hs h := by
    obtain ⟨t, h1, h2⟩ := h
    exact calls_quiet m m' ho hs ⟨t, h1, (idle_zero t (calm_idle h2)).1, (idle_zero t (calm_idle h2)).2.1⟩
  iter i m _ := calls_obs m _ _ (fun b => seen2_upd2 b _)
    (fun b => by obtain ⟨x, h⟩ := upd2_rest b _; rw [h]) (fun _ => rfl) (fun _ => rfl) (fun _ => rfl)
  inv k m _ := calls_inv ht k m
  end2 m _ := calls_obs m _ _ (fun b => seen2_upd2 b _)
    (fun b => by obtain ⟨x, h⟩ := upd2_rest b _; rw [h])
    (fun s => by unfold Stage2.finish; split <;> rfl) (fun s => by unfold Stage2.finish; split <;> rfl)
    (fun s => by unfold Stage2.finish; split <;> rfl)
  work m es h := calls_quiet m _ rfl rfl ⟨es, rfl, work_zero es h⟩
  evals k m _ := calls_obs m _ _ (fun b => seen2_upd2 b _)
    (fun b => by obtain ⟨x, h⟩ := upd2_rest b _; rw [h]) (fun _ => rfl) (fun _ => rfl) (fun _ => rfl)
  proc s k := calls_proc s k

/-- Sequential stage 2 counts the evaluations of its events, and processes every search. -/
def Evals (env : Env n) (m m' : M n) : Prop :=
  m'.opt.lsType = m.opt.lsType ∧ m'.opt.lsConfig = m.opt.lsConfig ∧
  ∃ t, m'.trace = m.trace ++ t ∧ nSearch t = nProc t ∧
    ∀ s, m.seen2 = some s → ∃ s', m'.seen2 = some s' ∧
      s'.functionEvaluations = s.functionEvaluations + evalsOf env m.opt.lsType m.opt.lsConfig t

theorem Evals.trans {env : Env n} {a b c : M n} (h : Evals env a b) (k : Evals env b c) :
    Evals env a c := by
  obtain ⟨f1, g1, t, ht, e1, h⟩ := h
  obtain ⟨f2, g2, u, hu, e2, k⟩ := k
  refine ⟨f2.trans f1, g2.trans g1, t ++ u, by rw [hu, ht, List.append_assoc],
    by rw [nSearch_append, nProc_append, e1, e2], fun s hs => ?_⟩
  obtain ⟨s1, h0, h1⟩ := h s hs
  obtain ⟨s2, k0, k1⟩ := k s1 h0
  exact ⟨s2, k0, by rw [k1, h1, evalsOf_append, f1, g1, Nat.add_assoc]⟩

theorem evals_quiet {env : Env n} (m m' : M n) (h1 : m'.opt.lsType = m.opt.lsType)
    (h2 : m'.opt.lsConfig = m.opt.lsConfig) (ho : m'.opt.obs = m.opt.obs)
    (ht : ∃ t, m'.trace = m.trace ++ t ∧ ∀ e ∈ t, e.idle = true) : Evals env m m' := by
  obtain ⟨t, ht, hs⟩ := ht
  obtain ⟨z1, z2, z3, z4⟩ := idle_zero t hs
  refine ⟨h1, h2, t, ht, by rw [z1, z3], fun s h => ⟨s, ?_, by rw [z4]; rfl⟩⟩
  unfold M.seen2 at h ⊢
  rw [ho]; exact h

theorem evals_obs {env : Env n} (m : M n) (g : Obs n → Obs n) (f : Stage2 n → Stage2 n)
    (hg : ∀ b, (g b).seen2 = b.seen2.map f)
    (h1 : ∀ s, (f s).functionEvaluations = s.functionEvaluations) :
    Evals env m { m with opt := m.opt.mapObs g } := by
  refine ⟨rfl, rfl, [], by simp, rfl, fun s hs => ⟨f s, ?_, by rw [h1]; rfl⟩⟩
  unfold M.seen2 Opt.mapObs at *
  dsimp only
  cases ho : m.opt.obs with
  | none => rw [ho] at hs; cases hs
  | some b =>
    rw [ho] at hs
    have hs : b.seen2 = some s := hs
    exact (hg b).trans (by rw [hs]; rfl)

theorem evals_inv {env : Env n} (ht : Tame env) (k : Nat) (m : M n) :
    Evals env m (Act.invoke env k m).1 := by
  unfold Act.invoke
  split
  · exact evals_quiet m m rfl rfl rfl ⟨[], by simp, by simp⟩
  · rename_i b hb
    obtain ⟨p, hp⟩ := invoke_prev ht k b
    rw [hp]
    refine Evals.trans (b := { m with opt := { m.opt with obs := some { b with prev := p } } }) ?_
      (evals_quiet _ _ rfl rfl rfl ?_)
    · refine ⟨rfl, rfl, [], by simp, rfl, fun s hs => ⟨s, ?_, rfl⟩⟩
      unfold M.seen2 at *
      rw [hb] at hs
      exact hs
    · dsimp only
      split
      · exact ⟨[_], rfl, by simp [Event.idle]⟩
      · exact ⟨[], by simp, by simp⟩

theorem evals_local (env : Env n) (i : Nat) (p : Pt n) (v : F64) :
    Resp true (Evals env) (Act.localSeq env i p v) := by
  intro m hf
  unfold Act.localSeq at hf ⊢
  rw [Act.seq_def, show (Act.setThreshold (n := n) v m).2 = .cont from rfl, if_pos rfl] at hf ⊢
  have h0 : Evals env m (Act.setThreshold v m).1 := evals_quiet _ _ rfl rfl rfl ⟨[], by
    show m.trace = _; simp, by simp⟩
  have ht : (Act.setThreshold v m).1.opt.lsType = m.opt.lsType := rfl
  have hc : (Act.setThreshold v m).1.opt.lsConfig = m.opt.lsConfig := rfl
  refine h0.trans ?_
  generalize (Act.setThreshold v m).1 = m1 at *
  unfold Act.search at hf ⊢
  rw [← ht, ← hc] at hf ⊢
  cases hsol : env.solve m1.opt.lsType m1.opt.lsConfig p with
  | error e =>
    rw [hsol] at hf
    exact absurd rfl (hf rfl _)
  | ok r =>
    obtain ⟨s, k⟩ := r
    rw [hsol] at hf
    dsimp only at hf ⊢
    unfold Act.process at hf ⊢
    dsimp only at hf ⊢
    by_cases hv : (m1.opt.process s).2 = .panic
    · rw [if_pos hv] at hf
      exact absurd rfl (hf rfl _)
    · rw [if_neg hv]
      obtain ⟨g, hg, hg'⟩ := process_obs m1.opt s
      have hcfg := Opt.process_cfg m1.opt s
      rw [Act.seq_def, show (Act.obsLocal (n := n) (m1.opt.process s).2.returned _ _).2 = .cont from rfl,
        if_pos rfl]
      unfold Act.stopIfTarget
      dsimp only
      unfold Act.obsLocal Act.modify Opt.mapObs
      dsimp only
      refine ⟨hcfg.lsType, hcfg.lsConfig, [.search (some i) p (.ok s), .processed s (m1.opt.process s).2],
        by simp, rfl, fun st hst => ?_⟩
      have htr := seen2_tracks hst
      rw [htr, if_pos rfl]
      unfold M.seen2 at hst ⊢
      dsimp only
      rw [hg]
      cases ho : m1.opt.obs with
      | none => rw [ho] at hst; cases hst
      | some b =>
        rw [ho] at hst
        have hst : b.seen2 = some st := hst
        have hgs : ∃ st', (g b).seen2 = some st' ∧
            st'.functionEvaluations = st.functionEvaluations := by
          rcases hg' with rfl | rfl
          · exact ⟨st, hst, rfl⟩
          · exact ⟨st.setLastAdded s.point, by rw [seen2_mod2, hst]; rfl, rfl⟩
        obtain ⟨st', h0, h1⟩ := hgs
        have hcost : evalsOf env m1.opt.lsType m1.opt.lsConfig
            [.search (some i) p (.ok s), .processed s (m1.opt.process s).2] = k := by
          simp [evalsOf, workCost, hsol]
        rw [hcost]
        simp only [Option.map_some, Option.bind_some, seen2_upd2, h0]
        refine ⟨_, rfl, ?_⟩
        cases (m1.opt.process s).1.solset with
        | none =>
          dsimp only [Stage2.addEvals, Stage2.addLocalCall]
          split <;> (dsimp only; rw [h1])
        | some set =>
          dsimp only [Stage2.addEvals, Stage2.addLocalCall, Stage2.setSize, Stage2.setBest]
          cases bestSolution set with
          | none => dsimp only; split <;> (dsimp only; rw [h1])
          | some best => dsimp only; (repeat' split) <;> (dsimp only; rw [h1])

theorem evals_merit {env : Env n} (objs : Option (List F64)) (i : Nat) (p : Pt n) (k : F64 → Act n)
    (hk : ∀ v, Resp true (Evals env) (k v)) : Resp true (Evals env) (Act.getMerit objs i p k) := by
  intro m hf
  unfold Act.getMerit at hf ⊢
  dsimp only at hf ⊢
  cases hv : Act.meritValue m.opt objs i p with
  | error e =>
    rw [hv] at hf
    exact absurd rfl (hf rfl _)
  | ok v =>
    rw [hv] at hf
    dsimp only at hf ⊢
    cases objs with
    | some l =>
      rw [if_neg (by simp)] at hf ⊢
      rw [if_neg (by simp)] at hf ⊢
      exact hk v m hf
    | none =>
      simp only [Option.isNone_none, if_true] at hf ⊢
      rw [Act.seq_def, show (Act.obsEvals (n := n) 1 _).2 = .cont from rfl, if_pos rfl] at hf ⊢
      refine Evals.trans ?_ (hk v _ hf)
      unfold Act.obsEvals Act.modify Opt.mapObs
      dsimp only
      refine ⟨rfl, rfl, [.evaluate i p], rfl, rfl, fun s hs => ⟨s.addEvals 1, ?_, rfl⟩⟩
      unfold M.seen2 at *
      dsimp only
      cases ho : m.opt.obs with
      | none => rw [ho] at hs; cases hs
      | some b =>
        rw [ho] at hs
        have hs : b.seen2 = some s := hs
        simp only [Option.map_some, Option.bind_some, seen2_upd2, hs]

theorem evalsTrack {env : Env n} (ht : Tame env) : TrackSeq env true (Evals env) where
  refl m := evals_quiet m m rfl rfl rfl ⟨[], by simp, by simp⟩
  trans := Evals.trans
  quiet m m' hc ho _ h := by
    obtain ⟨t, h1, h2⟩ := h
    exact evals_quiet m m' hc.lsType hc.lsConfig ho ⟨t, h1, calm_idle h2⟩
  iter i m _ := evals_obs m _ _ (fun b => seen2_upd2 b _) (fun _ => rfl)
  inv k m _ := evals_inv ht k m
  end2 m _ := evals_obs m _ _ (fun b => seen2_upd2 b _)
    (fun s => by unfold Stage2.finish; split <;> rfl)
  merit := evals_merit
  loc := evals_local env

/-! ### The mode of the observer -/

/-- Everything but the last added point. -/
def Stage2.strip (s : Stage2 n) : Stage2 n := { s with lastAdded := none }

/-- An observer restricted to one stage keeps the numbers of the other. -/
def Restricted (m m' : M n) : Prop := ∀ b, m.opt.obs = some b → ∃ b', m'.opt.obs = some b' ∧
  b'.mode = b.mode ∧ (b.mode = .stage1Only → b'.stage2.map Stage2.strip = b.stage2.map Stage2.strip) ∧
  (b.mode = .stage2Only → b'.stage1 = b.stage1)

theorem Restricted.trans {a b c : M n} (h : Restricted a b) (k : Restricted b c) : Restricted a c := by
  intro x hx
  obtain ⟨y, hy, h1, h2, h3⟩ := h x hx
  obtain ⟨z, hz, k1, k2, k3⟩ := k y hy
  exact ⟨z, hz, k1.trans h1, fun hm => (k2 (h1.trans hm)).trans (h2 hm),
    fun hm => (k3 (h1.trans hm)).trans (h3 hm)⟩

theorem restricted_obs (m m' : M n) (g : Obs n → Obs n) (hm : m'.opt.obs = m.opt.obs.map g)
    (h : ∀ b, (g b).mode = b.mode ∧
      (b.mode = .stage1Only → (g b).stage2.map Stage2.strip = b.stage2.map Stage2.strip) ∧
      (b.mode = .stage2Only → (g b).stage1 = b.stage1)) : Restricted m m' := by
  intro b hb
  rw [hb] at hm
  exact ⟨g b, hm, h b⟩

theorem restricted_id (m m' : M n) (h : m'.opt.obs = m.opt.obs) : Restricted m m' :=
  restricted_obs m m' id (by simp [h]) fun _ => ⟨rfl, fun _ => rfl, fun _ => rfl⟩

theorem keep_upd2 (b : Obs n) (f : Stage2 n → Stage2 n) : (b.upd2 f).mode = b.mode ∧
    (b.mode = .stage1Only → (b.upd2 f).stage2.map Stage2.strip = b.stage2.map Stage2.strip) ∧
    (b.mode = .stage2Only → (b.upd2 f).stage1 = b.stage1) := by
  obtain ⟨x, hx⟩ := upd2_rest b f
  refine ⟨by rw [hx], fun h => ?_, fun _ => by rw [hx]⟩
  unfold Obs.upd2 Obs.should2
  rw [h]; rfl

theorem keep_upd1 (b : Obs n) (f : Stage1 n → Stage1 n) : (b.upd1 f).mode = b.mode ∧
    (b.mode = .stage1Only → (b.upd1 f).stage2.map Stage2.strip = b.stage2.map Stage2.strip) ∧
    (b.mode = .stage2Only → (b.upd1 f).stage1 = b.stage1) := by
  obtain ⟨x, hx⟩ := upd1_rest b f
  refine ⟨by rw [hx], fun _ => by rw [hx], fun h => ?_⟩
  unfold Obs.upd1 Obs.should1
  rw [h]; rfl

theorem restricted_upd1 (m : M n) (f : Opt n → Stage1 n → Stage1 n) :
    Restricted m { m with opt := m.opt.mapObs fun b => b.upd1 (f m.opt) } :=
  restricted_obs m _ _ rfl fun b => keep_upd1 b _

theorem restricted_upd2 (m : M n) (f : Stage2 n → Stage2 n) :
    Restricted m { m with opt := m.opt.mapObs fun b => b.upd2 f } :=
  restricted_obs m _ _ rfl fun b => keep_upd2 b _

theorem restricted_inv {env : Env n} (ht : Tame env) (k : Nat) (m : M n) :
    Restricted m (Act.invoke env k m).1 := by
  unfold Act.invoke
  split
  · exact restricted_id m m rfl
  · rename_i b hb
    obtain ⟨p, hp⟩ := invoke_prev ht k b
    refine restricted_obs m _ (fun b => { b with prev := p }) ?_ fun _ => ⟨rfl, fun _ => rfl, fun _ => rfl⟩
    dsimp only
    rw [hp, hb]; rfl

theorem restricted_process (m m' : M n) (s : Sol n) (h : m'.opt.obs = (m.opt.process s).1.obs) :
    Restricted m m' := by
  obtain ⟨g, hg, hg'⟩ := process_obs m.opt s
  refine restricted_obs m m' g (h.trans hg) fun b => ?_
  rcases hg' with rfl | rfl
  · exact ⟨rfl, fun _ => rfl, fun _ => rfl⟩
  · refine ⟨rfl, fun _ => ?_, fun _ => rfl⟩
    unfold Obs.mod2
    dsimp only
    cases b.stage2 <;> rfl

theorem restrictedTrack {env : Env n} (ht : Tame env) : TrackPar env false (Restricted (n := n)) where
  refl m := restricted_id m m rfl
  trans := Restricted.trans
  quiet m m' _ ho _ _ := restricted_id m m' ho
  iter i m _ := restricted_upd2 m _
  inv k m _ := restricted_inv ht k m
  end2 m _ := restricted_upd2 m _
  work m es _ := restricted_id m _ rfl
  evals k m _ := restricted_upd2 m _
  proc s k m _ := by
    unfold Act.process
    dsimp only
    have h1 := restricted_process m
      { m with opt := (m.opt.process s).1, trace := m.trace ++ [.processed s (m.opt.process s).2] } s rfl
    split
    · exact h1
    · exact h1.trans (restricted_upd2 _ _)

end GS
