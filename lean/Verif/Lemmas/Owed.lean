/- Evaluations and local searches of stage 2 that the observer is not yet told about, in every mode. -/
import Verif.Lemmas.Tally

namespace GS
open F64
variable {n : Nat}

/-- Between the two states `d` more evaluations were made than the observer was told, and `c` more local
searches were made than were processed. -/
def Owed (env : Env n) (ty : SolverType) (cfg : SolverConfig) (d c : Int) (m m' : M n) : Prop :=
  SameCfg m.opt m'.opt ∧ ∃ t, m'.trace = m.trace ++ t ∧ (nSearch t : Int) = nProc t + c ∧
    ∀ s, m.seen2 = some s → ∃ s', m'.seen2 = some s' ∧
      (s'.functionEvaluations : Int) + d = s.functionEvaluations + evalsOf env ty cfg t

variable {env : Env n} {ty : SolverType} {cfg : SolverConfig}

theorem Owed.trans {d c d' c' : Int} {x y z : M n} (h : Owed env ty cfg d c x y)
    (k : Owed env ty cfg d' c' y z) : Owed env ty cfg (d + d') (c + c') x z := by
  obtain ⟨f1, t, ht, e1, h⟩ := h
  obtain ⟨f2, u, hu, e2, k⟩ := k
  refine ⟨f1.trans f2, t ++ u, by rw [hu, ht, List.append_assoc], ?_, fun s hs => ?_⟩
  · rw [nSearch_append, nProc_append]; push_cast; omega
  · obtain ⟨s1, h0, h1⟩ := h s hs
    obtain ⟨s2, k0, k1⟩ := k s1 h0
    refine ⟨s2, k0, ?_⟩
    rw [evalsOf_append]; push_cast; omega

theorem Owed.cast {d c d' c' : Int} {x y : M n} (h : Owed env ty cfg d c x y) (hd : d = d') (hc : c = c') :
    Owed env ty cfg d' c' x y := by subst hd; subst hc; exact h

theorem owed_quiet (m m' : M n) (hc : SameCfg m.opt m'.opt) (ho : m'.opt.obs = m.opt.obs)
    (ht : ∃ t, m'.trace = m.trace ++ t ∧ ∀ e ∈ t, e.idle = true) : Owed env ty cfg 0 0 m m' := by
  obtain ⟨t, ht, hs⟩ := ht
  obtain ⟨z1, z2, z3, z4⟩ := idle_zero t hs
  refine ⟨hc, t, ht, by rw [z1, z3]; rfl, fun s h => ⟨s, ?_, by rw [z4]; simp⟩⟩
  unfold M.seen2 at h ⊢
  rw [ho]; exact h

theorem owed_obs (m : M n) (g : Obs n → Obs n) (f : Stage2 n → Stage2 n) (k : Nat)
    (hg : ∀ b, (g b).seen2 = b.seen2.map f)
    (h1 : ∀ s, (f s).functionEvaluations = s.functionEvaluations + k) :
    Owed env ty cfg (-k) 0 m { m with opt := m.opt.mapObs g } := by
  refine ⟨by constructor <;> rfl, [], by simp, rfl, fun s hs => ⟨f s, ?_, ?_⟩⟩
  · unfold M.seen2 Opt.mapObs at *
    dsimp only
    cases ho : m.opt.obs with
    | none => rw [ho] at hs; cases hs
    | some b =>
      rw [ho] at hs
      have hs : b.seen2 = some s := hs
      exact (hg b).trans (by rw [hs]; rfl)
  · rw [h1]
    simp only [evalsOf, List.map_nil, List.sum_nil]
    push_cast; omega

theorem owed_inv (ht : Tame env) (k : Nat) (m : M n) :
    Owed env ty cfg 0 0 m (Act.invoke env k m).1 := by
  unfold Act.invoke
  split
  · exact owed_quiet m m (SameCfg.refl _) rfl ⟨[], by simp, by simp⟩
  · rename_i b hb
    obtain ⟨p, hp⟩ := invoke_prev ht k b
    rw [hp]
    refine Owed.cast (Owed.trans (d := 0) (c := 0) (d' := 0) (c' := 0)
      (y := { m with opt := { m.opt with obs := some { b with prev := p } } }) ?_
      (owed_quiet _ _ (SameCfg.refl _) rfl ?_)) rfl rfl
    · refine ⟨by constructor <;> rfl, [], by simp, rfl, fun s hs => ⟨s, ?_, by simp [evalsOf]⟩⟩
      unfold M.seen2 at *
      rw [hb] at hs
      exact hs
    · dsimp only
      split
      · exact ⟨[_], rfl, by simp [Event.idle]⟩
      · exact ⟨[], by simp, by simp⟩

theorem owedTrack (ht : Tame env) : Track env true (Owed env ty cfg 0 0) where
  refl m := owed_quiet m m (SameCfg.refl _) rfl ⟨[], by simp, by simp⟩
  trans h k := (h.trans k).cast rfl rfl
  quiet m m' hc ho _ h := by
    obtain ⟨t, h1, h2⟩ := h
    exact owed_quiet m m' hc ho ⟨t, h1, calm_idle h2⟩
  iter i m _ := (owed_obs m _ (fun s => ((s.setIteration i).setUnchanged m.uc).setThreshold m.opt.merit.threshold) 0 (fun b => seen2_upd2 b _) (fun _ => rfl)).cast rfl rfl
  inv k m _ := owed_inv ht k m
  end2 m _ := (owed_obs m _ _ 0 (fun b => seen2_upd2 b _)
    (fun s => by unfold Stage2.finish; split <;> rfl)).cast rfl rfl

/-- A local solution is processed and the observer told about it. -/
theorem owed_proc (s : Sol n) (k : Nat) :
    Resp true (Owed env ty cfg (-k) (-1)) (Act.process s fun v => Act.obsLocal v.returned k) := by
  intro m hf
  unfold Act.process at hf ⊢
  dsimp only at hf ⊢
  by_cases hv : (m.opt.process s).2 = .panic
  · rw [if_pos hv] at hf
    exact absurd rfl (hf rfl _)
  · rw [if_neg hv]
    obtain ⟨g, hg, hg'⟩ := process_obs m.opt s
    have hcfg := Opt.process_cfg m.opt s
    unfold Act.obsLocal Act.modify
    dsimp only
    refine ⟨hcfg.trans (by constructor <;> rfl), [.processed s (m.opt.process s).2], rfl, rfl,
      fun st hst => ?_⟩
    unfold M.seen2 Opt.mapObs at *
    dsimp only
    rw [hg]
    cases ho : m.opt.obs with
    | none => rw [ho] at hst; cases hst
    | some b =>
      rw [ho] at hst
      have hst : b.seen2 = some st := hst
      have hgs : ∃ st', (g b).seen2 = some st' ∧
          st'.functionEvaluations = st.functionEvaluations := by
        rcases hg' with rfl | rfl
        · exact ⟨st, hst, rfl⟩
        · exact ⟨st.setLastAdded s.point, by rw [seen2_mod2, hst]; rfl, rfl⟩
      obtain ⟨st', h0, h1⟩ := hgs
      have hcost : evalsOf env ty cfg [(.processed s (m.opt.process s).2 : Event n)] = 0 := rfl
      rw [hcost]
      simp only [Option.map_some, Option.bind_some, seen2_upd2, h0]
      refine ⟨_, rfl, ?_⟩
      have : ∀ q : Stage2 n, q.functionEvaluations = st.functionEvaluations + k →
          (q.functionEvaluations : Int) + -k = st.functionEvaluations + (0 : Nat) := by
        intro q hq; rw [hq]; push_cast; omega
      apply this
      cases (m.opt.process s).1.solset with
      | none =>
        dsimp only [Stage2.addEvals, Stage2.addLocalCall]
        split <;> (dsimp only; rw [h1])
      | some set =>
        dsimp only [Stage2.addEvals, Stage2.addLocalCall, Stage2.setSize, Stage2.setBest]
        cases bestSolution set with
        | none => dsimp only; split <;> (dsimp only; rw [h1])
        | some best => dsimp only; (repeat' split) <;> (dsimp only; rw [h1])

/-- Every solver call of stage 2 uses this solver. -/
structure OneSolver (ty : SolverType) (cfg : SolverConfig) (o : Opt n) : Prop where
  lsType : o.lsType = ty
  lsConfig : o.lsConfig = cfg
  solverType : o.params.solverType = ty
  solverConfig : o.params.solverConfig = cfg

theorem OneSolver.same {o o' : Opt n} (h : OneSolver ty cfg o) (hc : SameCfg o o') :
    OneSolver ty cfg o' where
  lsType := hc.lsType.trans h.lsType
  lsConfig := hc.lsConfig.trans h.lsConfig
  solverType := by rw [hc.params]; exact h.solverType
  solverConfig := by rw [hc.params]; exact h.solverConfig

/-- The result of an action that ends with a debt `d0`, `c0` less than the one it may leave if it stops. -/
def Pays (env : Env n) (ty : SolverType) (cfg : SolverConfig) (d0 c0 : Int) (m : M n) (r : M n × Out) : Prop :=
  (∀ e, r.2 ≠ .fail e) → ∃ d c, 0 ≤ d ∧ 0 ≤ c ∧ Owed env ty cfg (d - d0) (c - c0) m r.1 ∧
    (r.2 = .cont → d = 0 ∧ c = 0) ∧ (r.2 = .stop → r.1.opt.targetReached = true)

theorem owed_resp_seq {d c d' c' : Int} {a b : Act n} (ha : Resp true (Owed env ty cfg d c) a)
    (hn : ∀ m, (a m).2 ≠ .stop) (hb : Resp true (Owed env ty cfg d' c') b) :
    Resp true (Owed env ty cfg (d + d') (c + c')) (a ;; b) := by
  intro m
  rw [Act.seq_def]
  split
  · rename_i hc
    intro hf
    exact (ha m (fun _ e he => by rw [hc] at he; cases he)).trans (hb _ hf)
  · rename_i hc
    intro hf
    exfalso
    cases ho : (a m).2 with
    | cont => exact hc ho
    | stop => exact hn m ho
    | fail e => exact hf rfl e ho

theorem proc_nostop (s : Sol n) (k : Nat) (m : M n) :
    (Act.process s (fun v => Act.obsLocal v.returned k) m).2 ≠ .stop := by
  unfold Act.process
  dsimp only
  split
  · exact fun h => by cases h
  · exact fun h => by cases h

/-- The last steps of an iteration with a local search stop only if the target is reached. -/
theorem stop_target (m : M n) (h : ((Act.stopIfTarget ;; Act.save env) m).2 = .stop) :
    ((Act.stopIfTarget ;; Act.save env) m).1.opt.targetReached = true := by
  rw [Act.seq_def] at h ⊢
  split
  · rename_i hc
    rw [if_pos hc] at h
    exfalso
    unfold Act.save at h
    split at h
    · cases h
    · split at h
      · cases h
      · split at h
        · unfold Act.writeCkpt at h
          dsimp only at h
          split at h <;> cases h
        · cases h
  · rename_i hc
    rw [if_neg hc] at h
    unfold Act.stopIfTarget at h ⊢
    dsimp only at h ⊢
    by_cases ht : m.opt.targetReached = true
    · exact ht
    · rw [if_neg ht] at h; cases h

/-- The action stops only if the target is reached. -/
def StopsAt (a : Act n) : Prop := ∀ m, (a m).2 = .stop → (a m).1.opt.targetReached = true

theorem StopsAt.after {a b : Act n} (ha : ∀ m, (a m).2 ≠ .stop) (hb : StopsAt b) : StopsAt (a ;; b) := by
  intro m h
  rw [Act.seq_def] at h ⊢
  split
  · rename_i hc
    rw [if_pos hc] at h
    exact hb _ h
  · rename_i hc
    rw [if_neg hc] at h
    exact absurd h (ha m)

theorem beginIter_nostop (i : Nat) (m : M n) : (Act.beginIter env i m).2 ≠ .stop := by
  unfold Act.beginIter
  dsimp only
  split <;> exact fun h => by cases h

theorem callback_nostop (i : Nat) (m : M n) : (Act.callback env i m).2 ≠ .stop := by
  unfold Act.callback
  split
  · exact fun h => by cases h
  · split
    · exact fun h => by cases h
    · rw [invoke_out]; exact fun h => by cases h
    · exact fun h => by cases h

theorem resultPar_stops (i : Nat) (v : F64) (s : Sol n) (k : Nat) : StopsAt (Act.resultPar env i v s k) := by
  unfold Act.resultPar
  rw [process_seq]
  exact StopsAt.after (beginIter_nostop i) (StopsAt.after (fun _ h => by cases h) (StopsAt.after
    (proc_nostop s k) (StopsAt.after (fun _ h => by cases h) (StopsAt.after (callback_nostop i)
      fun m => stop_target m))))

theorem owed_resultPar (ht : Tame env) (i : Nat) (v : F64) (s : Sol n) (k : Nat) :
    Resp true (Owed env ty cfg (-k) (-1)) (Act.resultPar env i v s k) := by
  have T := owedTrack (ty := ty) (cfg := cfg) ht
  unfold Act.resultPar
  rw [process_seq]
  have h4 : Resp true (Owed env ty cfg 0 0) (Act.obsIter (n := n) i ;; Act.callback env i ;;
      Act.stopIfTarget ;; Act.save env) :=
    T.seq (T.iter _) (T.seq (T.callback _) (T.seq T.stopIfTarget T.save))
  have h3 := owed_resp_seq (owed_proc (env := env) (ty := ty) (cfg := cfg) s k) (proc_nostop s k) h4
  have h2 := owed_resp_seq (T.setThreshold v) (fun _ h => by cases h) h3
  have h1 := owed_resp_seq (T.beginIter i) (beginIter_nostop i) h2
  intro m hf
  exact (h1 m hf).cast (by omega) (by omega)

theorem singlePar_stops (i : Nat) (p : Pt n) (v : F64) : StopsAt (Act.singlePar env i p v) := by
  intro m
  unfold Act.singlePar
  refine StopsAt.after (beginIter_nostop i) (StopsAt.after (fun _ h => by cases h) ?_) m
  intro m
  unfold Act.search
  split
  · exact fun h => by cases h
  · dsimp only
    rw [process_seq]
    exact StopsAt.after (proc_nostop _ _) (StopsAt.after (fun _ h => by cases h)
      (StopsAt.after (fun m h => by rw [invoke_out] at h; cases h) fun m => stop_target m)) _

theorem owed_search {d c : Int} {it : Nat} {p : Pt n} {k : Sol n → Nat → Act n}
    (hk : ∀ s (e : Nat), Resp true (Owed env ty cfg (-(e : Int) + d) (-1 + c)) (k s e)) :
    Resp true (Owed env ty cfg d c) (Act.search env ty cfg (some it) p k) := by
  intro m
  unfold Act.search
  cases hs : env.solve ty cfg p with
  | error e => intro hf; exact absurd rfl (hf rfl _)
  | ok r =>
    obtain ⟨s, e⟩ := r
    dsimp only
    intro hf
    have h1 : Owed env ty cfg ((if m.opt.tracks2 = true then e else 0 : Nat) : Int) 1 m
        { m with trace := m.trace ++ [.search (some it) p (.ok s)] } := by
      refine ⟨SameCfg.refl _, [_], rfl, rfl, fun st hst => ⟨st, hst, ?_⟩⟩
      rw [if_pos (seen2_tracks hst)]
      simp [evalsOf, workCost, hs]
    exact (h1.trans (hk s _ _ hf)).cast (by omega) (by omega)

theorem owed_singlePar (ht : Tame env) (i : Nat) (p : Pt n) (v : F64) (m : M n)
    (ho : OneSolver ty cfg m.opt) (hf : ∀ e, (Act.singlePar env i p v m).2 ≠ .fail e) :
    Owed env ty cfg 0 0 m (Act.singlePar env i p v m).1 := by
  have T := owedTrack (ty := ty) (cfg := cfg) ht
  unfold Act.singlePar at hf ⊢
  rw [ho.lsType, ho.lsConfig] at hf ⊢
  have h3 : Resp true (Owed env ty cfg 0 0) (Act.search env ty cfg (some i) p fun s evals =>
      Act.process s fun v => Act.obsLocal v.returned evals ;; Act.obsIter i ;; Act.invoke env (16 + i) ;;
        Act.stopIfTarget ;; Act.save env) := by
    refine owed_search fun s e => ?_
    rw [process_seq]
    exact owed_resp_seq (owed_proc s e) (proc_nostop s e)
      (T.seq (T.iter _) (T.seq (T.inv _) (T.seq T.stopIfTarget T.save)))
  exact T.seq (T.beginIter i) (T.seq (T.setThreshold v) h3) m fun _ => hf

theorem pays_results (ht : Tame env) (rs : List (Nat × F64 × Sol n × Nat)) (m : M n) :
    Pays env ty cfg ((rs.map fun r => r.2.2.2).sum : Nat) rs.length m
      (Act.all (rs.map fun r => Act.resultPar env r.1 r.2.1 r.2.2.1 r.2.2.2) m) := by
  induction rs generalizing m with
  | nil =>
    intro _
    exact ⟨0, 0, by omega, by omega, ((owedTrack ht).refl m).cast (by simp) (by simp), fun _ => ⟨rfl, rfl⟩,
      fun h => by cases h⟩
  | cons r rs ih =>
    rw [List.map_cons, List.map_cons, show ∀ (a : Act n) l, Act.all (a :: l) = (a ;; Act.all l) from fun _ _ => rfl,
      Act.seq_def]
    have h1 := owed_resultPar (ty := ty) (cfg := cfg) ht r.1 r.2.1 r.2.2.1 r.2.2.2 m
    have h2 := resultPar_stops (env := env) r.1 r.2.1 r.2.2.1 r.2.2.2 m
    split
    · rename_i hc
      intro hf
      have h1 := h1 fun _ e he => by rw [hc] at he; cases he
      obtain ⟨d, c, hd, hc', ho, h3, h4⟩ := ih _ hf
      refine ⟨d, c, hd, hc', (h1.trans ho).cast ?_ ?_, h3, h4⟩
      · rw [List.sum_cons]; push_cast; omega
      · rw [List.length_cons]; push_cast; omega
    · rename_i hc
      intro hf
      refine ⟨((rs.map fun r => r.2.2.2).sum : Nat), rs.length, by omega, by omega,
        (h1 fun _ => hf).cast ?_ ?_, fun h => absurd h hc, h2⟩
      · rw [List.sum_cons]; push_cast; omega
      · rw [List.length_cons]; push_cast; omega

theorem Pays.cast {d0 c0 d1 c1 : Int} {m : M n} {r : M n × Out} (h : Pays env ty cfg d0 c0 m r)
    (hd : d0 = d1) (hc : c0 = c1) : Pays env ty cfg d1 c1 m r := by subst hd; subst hc; exact h

/-- Something was done before. -/
theorem Pays.pre {d0 c0 d c : Int} {m m1 : M n} {r : M n × Out} (h : Owed env ty cfg d c m m1)
    (k : Pays env ty cfg d0 c0 m1 r) : Pays env ty cfg (d0 - d) (c0 - c) m r := by
  intro hf
  obtain ⟨d', c', h1, h2, h3, h4⟩ := k hf
  exact ⟨d', c', h1, h2, (h.trans h3).cast (by omega) (by omega), h4⟩

theorem Pays.seq {d0 c0 d c : Int} {a b : Act n} {m : M n} (ha : Resp true (Owed env ty cfg d c) a)
    (hn : ∀ m, (a m).2 ≠ .stop)
    (hb : SameCfg m.opt (a m).1.opt → Pays env ty cfg d0 c0 (a m).1 (b (a m).1)) :
    Pays env ty cfg (d0 - d) (c0 - c) m ((a ;; b) m) := by
  rw [Act.seq_def]
  split
  · rename_i hc
    have := ha m fun _ e he => by rw [hc] at he; cases he
    exact Pays.pre this (hb this.1)
  · rename_i hc
    intro hf
    exfalso
    cases ho : (a m).2 with
    | cont => exact hc ho
    | stop => exact hn m ho
    | fail e => exact hf e ho

theorem solveTasks_cost {o : Opt n} {cands : List (Nat × Pt n × F64)}
    {rs : List (Nat × F64 × Sol n × Nat)} (h : cands.map (Act.solveTask env o) = rs.map Except.ok)
    (ho : OneSolver ty cfg o) (htr : o.tracks2 = true) :
    evalsOf env ty cfg (cands.map (Act.solveEvent env o)) = (rs.map fun r => r.2.2.2).sum := by
  induction cands generalizing rs with
  | nil =>
    cases rs with
    | nil => rfl
    | cons _ _ => cases h
  | cons c cands ih =>
    cases rs with
    | nil => cases h
    | cons r rs =>
      rw [List.map_cons, List.map_cons] at h
      obtain ⟨h1, h2⟩ := List.cons.inj h
      rw [List.map_cons, show Act.solveEvent env o c :: List.map (Act.solveEvent env o) cands =
        [Act.solveEvent env o c] ++ cands.map (Act.solveEvent env o) from rfl, evalsOf_append, ih h2,
        List.map_cons, List.sum_cons]
      congr 1
      unfold Act.solveTask at h1
      unfold Act.solveEvent
      rw [ho.solverType, ho.solverConfig] at h1 ⊢
      cases hs : env.solve ty cfg c.2.1 with
      | error e => rw [hs] at h1; cases h1
      | ok x =>
        rw [hs] at h1
        injection h1 with h1
        rw [← h1, htr]
        simp [evalsOf, workCost, hs]

theorem nSearch_solve (o : Opt n) (cands : List (Nat × Pt n × F64)) :
    nSearch (cands.map (Act.solveEvent env o)) = cands.length ∧
      nProc (cands.map (Act.solveEvent env o)) = 0 := by
  induction cands with
  | nil => exact ⟨rfl, rfl⟩
  | cons c cands ih =>
    rw [List.map_cons, show Act.solveEvent env o c :: List.map (Act.solveEvent env o) cands =
        [Act.solveEvent env o c] ++ cands.map (Act.solveEvent env o) from rfl, nSearch_append, nProc_append,
        ih.1, ih.2]
    exact ⟨by rw [Nat.add_comm]; rfl, rfl⟩

theorem pays_groupPar (ht : Tame env) (k : Nat) (cands : List (Nat × Pt n × F64)) (m : M n)
    (ho : OneSolver ty cfg m.opt) : Pays env ty cfg 0 0 m (Act.groupPar env k cands m) := by
  unfold Act.groupPar
  split
  · intro hf; exact absurd rfl (hf _)
  · rename_i rs hrs
    have hok := parCollect_ok hrs
    have hlen : cands.length = rs.length := by
      have := congrArg List.length hok
      simpa using this
    have h1 : Owed env ty cfg ((rs.map fun r => r.2.2.2).sum : Nat) rs.length m
        { m with trace := m.trace ++ cands.map (Act.solveEvent env m.opt) } := by
      obtain ⟨z1, z2⟩ := nSearch_solve (env := env) m.opt cands
      refine ⟨SameCfg.refl _, _, rfl, by rw [z1, z2, hlen]; simp, fun st hst => ⟨st, hst, ?_⟩⟩
      rw [solveTasks_cost hok ho (seen2_tracks hst)]
    exact (Pays.pre h1 (pays_results ht rs _)).cast (by omega) (by omega)

theorem pays_singles (ht : Tame env) (cands : List (Nat × Pt n × F64)) (m : M n)
    (ho : OneSolver ty cfg m.opt) :
    Pays env ty cfg 0 0 m (Act.all (cands.map fun c => Act.singlePar env c.1 c.2.1 c.2.2) m) := by
  induction cands generalizing m with
  | nil =>
    intro _
    exact ⟨0, 0, by omega, by omega, ((owedTrack ht).refl m).cast rfl rfl, fun _ => ⟨rfl, rfl⟩,
      fun h => by cases h⟩
  | cons r rs ih =>
    rw [List.map_cons, show ∀ (a : Act n) l, Act.all (a :: l) = (a ;; Act.all l) from fun _ _ => rfl, Act.seq_def]
    have h1 := owed_singlePar (ty := ty) (cfg := cfg) ht r.1 r.2.1 r.2.2 m ho
    have h2 := singlePar_stops (env := env) r.1 r.2.1 r.2.2 m
    split
    · rename_i hc
      have h1 := h1 fun e he => by rw [hc] at he; cases he
      exact (Pays.pre h1 (ih _ (ho.same h1.1))).cast (by omega) (by omega)
    · rename_i hc
      intro hf
      exact ⟨0, 0, by omega, by omega, (h1 hf).cast rfl rfl, fun _ => ⟨rfl, rfl⟩, h2⟩

theorem pays_localsPar (ht : Tame env) (k : Nat) (cands : List (Nat × Pt n × F64)) (m : M n)
    (ho : OneSolver ty cfg m.opt) : Pays env ty cfg 0 0 m (Act.localsPar env k cands m) := by
  unfold Act.localsPar
  split
  · exact pays_groupPar ht k cands m ho
  · exact pays_singles ht cands m ho

theorem save_nostop (m : M n) : (Act.save env m).2 ≠ .stop := by
  unfold Act.save
  split
  · exact fun h => by cases h
  · split
    · exact fun h => by cases h
    · split
      · unfold Act.writeCkpt
        dsimp only
        split <;> exact fun h => by cases h
      · exact fun h => by cases h

theorem seq_nostop {a b : Act n} (ha : ∀ m, (a m).2 ≠ .stop) (hb : ∀ m, (b m).2 ≠ .stop) (m : M n) :
    ((a ;; b) m).2 ≠ .stop := by
  rw [Act.seq_def]
  split
  · exact hb _
  · exact ha m

theorem all_nostop {l : List (Act n)} (h : ∀ a ∈ l, ∀ m, (a m).2 ≠ .stop) (m : M n) :
    (Act.all l m).2 ≠ .stop := by
  induction l generalizing m with
  | nil => exact fun h => by cases h
  | cons a l ih => exact seq_nostop (h a (by simp)) (ih fun x hx => h x (by simp [hx])) m

theorem quickPar_nostop (i : Nat) (m : M n) : (Act.quickPar env i m).2 ≠ .stop := by
  unfold Act.quickPar
  refine seq_nostop (beginIter_nostop i) (seq_nostop (fun m => ?_) (seq_nostop (fun _ h => by cases h)
    (seq_nostop (callback_nostop i) save_nostop))) m
  unfold Act.reject
  split <;> exact fun h => by cases h

theorem evalTask_len {o : Opt n} {objs : Option (List F64)} {its : List (Nat × Pt n)} {order : List Nat}
    {vals : List (Nat × Pt n × F64)} (h : Act.parCollect (Act.evalTask o objs) its order = .ok vals) :
    vals.length = its.length := by
  have := congrArg List.length (parCollect_ok h)
  simpa using this.symm

theorem examine_idle (o : Opt n) (vals : List (Nat × Pt n × F64)) :
    ∀ e ∈ vals.map (fun c => Event.examine c.1 c.2.1 c.2.2 (Act.passes o c)), e.idle = true := by
  intro e he
  obtain ⟨_, _, rfl⟩ := List.mem_map.1 he
  rfl

theorem pays_afterEval (ht : Tame env) (objs : Option (List F64)) (k : Nat)
    (vals : List (Nat × Pt n × F64)) (m : M n) (ho : OneSolver ty cfg m.opt) :
    Pays env ty cfg (if objs.isNone then (vals.length : Int) else 0) 0 m
      (Act.afterEval env objs k vals m) := by
  have T := owedTrack (ty := ty) (cfg := cfg) ht
  unfold Act.afterEval
  have h1 := owed_quiet (env := env) (ty := ty) (cfg := cfg) m
    { m with trace := m.trace ++ vals.map fun c => Event.examine c.1 c.2.1 c.2.2 (Act.passes m.opt c) }
    (SameCfg.refl _) rfl ⟨_, rfl, examine_idle _ _⟩
  have h2 : Resp true (Owed env ty cfg (if objs.isNone then -(vals.length : Int) else 0) 0)
      (if objs.isNone = true then Act.obsEvals (n := n) vals.length else Act.skip) := by
    split
    · exact fun m _ => owed_obs m _ _ vals.length (fun b => seen2_upd2 b _) (fun _ => rfl)
    · exact T.skip
  have h3 : Resp true (Owed env ty cfg 0 0)
      (Act.all ((vals.filter fun c => !Act.passes m.opt c).map fun c => Act.quickPar env c.1)) := by
    apply T.all
    intro a ha
    obtain ⟨it, _, rfl⟩ := List.mem_map.1 ha
    exact T.seq (T.beginIter _) (T.seq (T.reject _) (T.seq (T.iter _) (T.seq (T.callback _) T.save)))
  refine (Pays.pre h1 (Pays.seq h2 ?_ fun hc1 => Pays.seq h3 ?_ fun hc2 =>
    pays_localsPar ht k _ _ ((ho.same hc1).same hc2))).cast ?_ ?_
  · intro m
    split <;> exact fun h => by cases h
  · refine all_nostop fun a ha m => ?_
    obtain ⟨it, _, rfl⟩ := List.mem_map.1 ha
    exact quickPar_nostop _ m
  · split <;> omega
  · omega

theorem evalsOf_evaluate (its : List (Nat × Pt n)) :
    evalsOf env ty cfg (its.map fun it => Event.evaluate it.1 it.2) = its.length ∧
      nSearch (its.map fun it => (Event.evaluate it.1 it.2 : Event n)) = 0 ∧
      nProc (its.map fun it => (Event.evaluate it.1 it.2 : Event n)) = 0 := by
  induction its with
  | nil => exact ⟨rfl, rfl, rfl⟩
  | cons it its ih =>
    obtain ⟨h1, h2, h3⟩ := ih
    rw [List.map_cons, show (Event.evaluate it.1 it.2 :: its.map fun it => (Event.evaluate it.1 it.2 : Event n)) =
      [Event.evaluate it.1 it.2] ++ its.map fun it => Event.evaluate it.1 it.2 from rfl, evalsOf_append,
      nSearch_append, nProc_append, h1, h2, h3]
    exact ⟨by rw [List.length_cons, Nat.add_comm]; rfl, rfl, rfl⟩

theorem owed_logEvals (objs : Option (List F64)) (its : List (Nat × Pt n)) (m : M n) :
    Owed env ty cfg (if objs.isNone then (its.length : Int) else 0) 0 m (Act.logEvals objs its m) := by
  unfold Act.logEvals
  obtain ⟨h1, h2, h3⟩ := evalsOf_evaluate (env := env) (ty := ty) (cfg := cfg) its
  split
  · exact ⟨SameCfg.refl _, _, rfl, by rw [h2, h3]; rfl, fun st hst => ⟨st, hst, by rw [h1]⟩⟩
  · exact owed_quiet m m (SameCfg.refl _) rfl ⟨[], by simp, by simp⟩

theorem pays_batchPar (ht : Tame env) (r : Bool) (st : Nat) (objs : Option (List F64))
    (its : List (Nat × Pt n)) (m : M n) (ho : OneSolver ty cfg m.opt) :
    Pays env ty cfg 0 0 m (Act.batchPar env r st objs its m) := by
  unfold Act.batchPar
  generalize (if r then its.filter (fun it => st ≤ it.1) else its) = l
  cases l with
  | nil =>
    intro _
    exact ⟨0, 0, by omega, by omega, ((owedTrack ht).refl m).cast rfl rfl, fun _ => ⟨rfl, rfl⟩,
      fun h => by cases h⟩
  | cons it0 its =>
    simp only [Act.batchParItems]
    split
    · intro hf; exact absurd rfl (hf _)
    · rename_i vals hv
      have h1 := owed_logEvals (env := env) (ty := ty) (cfg := cfg) objs (it0 :: its) m
      refine (Pays.pre h1 (pays_afterEval ht objs _ vals _ (ho.same h1.1))).cast ?_ (by omega)
      rw [evalTask_len hv]
      split <;> omega

/-- Parallel stage 2 that does not fail. -/
theorem pays_loop (ht : Tame env) {r : Bool} {st : Nat} {objs : Option (List F64)} {eff : Nat}
    (heff : 1 < eff) (k : Nat) (bs : List (List (Nat × Pt n))) (m : M n) (ho : OneSolver ty cfg m.opt)
    (hf : ∀ e, (Act.loop env r st objs eff k bs m).2 ≠ .fail e) :
    ∃ d c, 0 ≤ d ∧ 0 ≤ c ∧ Owed env ty cfg d c m (Act.loop env r st objs eff k bs m).1 ∧
      ((Act.loop env r st objs eff k bs m).1.opt.targetReached = false → d = 0 ∧ c = 0) := by
  induction bs generalizing k m with
  | nil => exact ⟨0, 0, by omega, by omega, (owedTrack ht).refl m, fun _ => ⟨rfl, rfl⟩⟩
  | cons b bs ih =>
    have h1 := pays_batchPar (ty := ty) (cfg := cfg) ht r st objs b m ho
    unfold Act.loop at hf ⊢
    split
    · exact ⟨0, 0, by omega, by omega, (owedTrack ht).refl m, fun _ => ⟨rfl, rfl⟩⟩
    · rename_i hto
      rw [if_neg hto] at hf
      have hp : Act.procBatch env r st objs eff b m = Act.batchPar env r st objs b m := by
        unfold Act.procBatch
        rw [if_pos heff]
      rw [hp] at hf ⊢
      generalize Act.batchPar env r st objs b m = res at h1 hf
      obtain ⟨m', out⟩ := res
      cases out with
      | fail e => exact absurd rfl (hf e)
      | stop =>
        obtain ⟨d, c, a1, a2, a3, a4, a5⟩ := h1 fun e he => by cases he
        have ht := a5 rfl
        dsimp only at ht hf ⊢
        rw [if_pos ht]
        exact ⟨d, c, a1, a2, a3.cast (by omega) (by omega), fun h => by rw [ht] at h; cases h⟩
      | cont =>
        obtain ⟨d, c, a1, a2, a3, a4, a5⟩ := h1 fun e he => by cases he
        obtain ⟨rfl, rfl⟩ := a4 rfl
        dsimp only at hf ⊢
        split
        · exact ⟨0, 0, by omega, by omega, a3.cast (by omega) (by omega), fun _ => ⟨rfl, rfl⟩⟩
        · rename_i htr
          rw [if_neg htr] at hf
          obtain ⟨d, c, b1, b2, b3, b4⟩ := ih (k + 1) m' (ho.same a3.1) hf
          exact ⟨d, c, b1, b2, (a3.trans b3).cast (by omega) (by omega), b4⟩


/-- Stage 2 in any mode. -/
theorem owed_main (ht : Tame env) {r : Bool} {st : Nat} {ref : List (Pt n)} {objs : Option (List F64)}
    {m : M n} (ho : OneSolver ty cfg m.opt) (hf : ∀ e, (Act.stage2Main env r st ref objs m).2 ≠ .fail e) :
    ∃ d c, 0 ≤ d ∧ 0 ≤ c ∧ Owed env ty cfg d c m (Act.stage2Main env r st ref objs m).1 ∧
      ((Act.stage2Main env r st ref objs m).1.opt.targetReached = false → d = 0 ∧ c = 0) := by
  by_cases heff : 1 < m.opt.effBatch env.threads st
  · unfold Act.stage2Main at hf ⊢
    rw [if_neg (show ¬ m.opt.effBatch env.threads st = 0 by omega)] at hf ⊢
    have hq := ((QuietAct.obsEnd2 env).seq (QuietAct.saveFinal env)).quiet
    have hs : Resp true (Owed env ty cfg 0 0) (Act.obsEnd2 env ;; Act.saveFinal env) := by
      have T := owedTrack (ty := ty) (cfg := cfg) ht
      exact T.seq T.end2 T.saveFinal
    rw [Act.seq_def] at hf ⊢
    have key := pays_loop (ty := ty) (cfg := cfg) ht (r := r) (st := st) (objs := objs) heff 0
      (chunks (m.opt.effBatch env.threads st) (Act.items m.opt.params.iterations st ref)) m ho
    generalize Act.loop env r st objs (m.opt.effBatch env.threads st) 0
      (chunks (m.opt.effBatch env.threads st) (Act.items m.opt.params.iterations st ref)) m = res at *
    split
    · rename_i hc
      rw [if_pos hc] at hf
      obtain ⟨d, c, h1, h2, h3, h4⟩ := key fun e he => by rw [hc] at he; cases he
      refine ⟨d, c, h1, h2, (h3.trans (hs _ fun _ => hf)).cast (by omega) (by omega), fun h => h4 ?_⟩
      rw [← (hq res.1).target]; exact h
    · rename_i hc
      rw [if_neg hc] at hf
      exact key hf
  · have hE := (evalsTrack ht).main r st ref objs m heff (fun _ => hf)
    obtain ⟨e1, e2, t, htr, hn, hE⟩ := hE
    have hcfg : SameCfg m.opt (Act.stage2Main env r st ref objs m).1.opt :=
      ((owedTrack (ty := ty) (cfg := cfg) ht).refl m).1.trans (Reach.cfg (Steps.stage2Main env r st ref objs m))
    refine ⟨0, 0, by omega, by omega, ⟨hcfg, t, htr, by rw [hn]; simp, fun s hs => ?_⟩, fun _ => ⟨rfl, rfl⟩⟩
    obtain ⟨s', h1, h2⟩ := hE s hs
    refine ⟨s', h1, ?_⟩
    rw [h2, ho.lsType, ho.lsConfig]; push_cast; omega

end GS
