/- The observer over a whole run. -/
import Verif.Lemmas.Shown

namespace GS
open F64
variable {n : Nat}

/-- No callback of stage 2. -/
def Event.early : Event n → Bool
  | .callback k _ _ => decide (k < 16)
  | _ => true

theorem calm_early {t : List (Event n)} (h : ∀ e ∈ t, e.calm = true) : ∀ e ∈ t, e.early = true := by
  intro e he
  have := h e he
  cases e <;> first | rfl | cases this

/-- What a piece of stage 1 does: `k` more evaluations are counted, `p` local solutions processed, and
nothing is told about stage 2. -/
def First (k p : Nat) (m m' : M n) : Prop :=
  SameCfg m.opt m'.opt ∧
  (∃ t, m'.trace = m.trace ++ t ∧ nSearch t = 0 ∧ nProc t = p ∧ (∀ env ty cfg, evalsOf env ty cfg t = 0) ∧
    m'.opt.solset = setAfter m.opt.solset t ∧ ∀ e ∈ t, e.early = true) ∧
  ∀ b, m.opt.obs = some b → ∃ b', m'.opt.obs = some b' ∧ b'.mode = b.mode ∧
    b'.stage2Started = b.stage2Started ∧ b'.stage2.map Stage2.strip = b.stage2.map Stage2.strip ∧
    ∀ s, b.seen1 = some s → ∃ s', b'.seen1 = some s' ∧ s'.functionEvaluations = s.functionEvaluations + k

theorem First.trans {k p k' p' : Nat} {a b c : M n} (h : First k p a b) (g : First k' p' b c) :
    First (k + k') (p + p') a c := by
  obtain ⟨c1, ⟨t, ht, h1, h2, h3, h4, h5⟩, h⟩ := h
  obtain ⟨c2, ⟨u, hu, g1, g2, g3, g4, g5⟩, g⟩ := g
  refine ⟨c1.trans c2, ⟨t ++ u, by rw [hu, ht, List.append_assoc], by rw [nSearch_append, h1, g1],
    by rw [nProc_append, h2, g2], fun env ty cfg => by rw [evalsOf_append, h3, g3],
    by rw [g4, h4, setAfter_append], fun e he => (List.mem_append.1 he).elim (h5 e) (g5 e)⟩, fun x hx => ?_⟩
  obtain ⟨y, hy, a1, a2, a3, a4⟩ := h x hx
  obtain ⟨z, hz, b1, b2, b3, b4⟩ := g y hy
  refine ⟨z, hz, b1.trans a1, b2.trans a2, b3.trans a3, fun s hs => ?_⟩
  obtain ⟨s1, e1, f1⟩ := a4 s hs
  obtain ⟨s2, e2, f2⟩ := b4 s1 e1
  exact ⟨s2, e2, by omega⟩

theorem First.cast {k p k' p' : Nat} {m m' : M n} (hk : k = k') (hp : p = p') (h : First k p m m') :
    First k' p' m m' := by
  subst hk; subst hp; exact h

/-- Nothing happens to the observer. -/
theorem first_quiet (m m' : M n) (hc : SameCfg m.opt m'.opt) (ho : m'.opt.obs = m.opt.obs)
    (hset : m'.opt.solset = m.opt.solset)
    (ht : ∃ t, m'.trace = m.trace ++ t ∧ ∀ e ∈ t, e.calm = true) : First 0 0 m m' := by
  obtain ⟨t, ht, hs⟩ := ht
  obtain ⟨z1, z2, z3, z4⟩ := idle_zero t (calm_idle hs)
  exact ⟨hc, ⟨t, ht, z3, z1, z4, by rw [hset, setAfter_idle _ _ fun e he => Or.inl (hs e he)],
    calm_early hs⟩, fun b hb => ⟨b, ho.trans hb, rfl, rfl, rfl, fun s hs => ⟨s, hs, rfl⟩⟩⟩

/-- The stage-1 numbers change. -/
theorem first_upd1 (m : M n) (f : Stage1 n → Stage1 n) (k : Nat)
    (h : ∀ s, (f s).functionEvaluations = s.functionEvaluations + k) :
    First k 0 m { m with opt := m.opt.mapObs fun b => b.upd1 f } := by
  refine ⟨by constructor <;> rfl, ⟨[], by simp, rfl, rfl, fun _ _ _ => rfl, rfl, by simp⟩, fun b hb => ?_⟩
  refine ⟨b.upd1 f, by dsimp only [Opt.mapObs]; rw [hb]; rfl, ?_⟩
  obtain ⟨x, hx⟩ := upd1_rest b f
  refine ⟨by rw [hx], by rw [hx], by rw [hx], fun s hs => ⟨f s, by rw [seen1_upd1, hs]; rfl, h s⟩⟩

theorem first_inv {env : Env n} (ht : Tame env) {k : Nat} (hk : k < 16) (m : M n) :
    First 0 0 m (Act.invoke env k m).1 := by
  unfold Act.invoke
  split
  · exact first_quiet m m (SameCfg.refl _) rfl rfl ⟨[], by simp, by simp⟩
  · rename_i b hb
    obtain ⟨p, hp⟩ := invoke_prev ht k b
    refine ⟨by constructor <;> rfl, ?_, fun x hx => ?_⟩
    · dsimp only
      split
      · exact ⟨[_], rfl, rfl, rfl, fun _ _ _ => rfl, rfl, by simpa [Event.early] using hk⟩
      · exact ⟨[], by simp, rfl, rfl, fun _ _ _ => rfl, rfl, by simp⟩
    · rw [hb] at hx
      cases hx
      exact ⟨_, rfl, by rw [hp], by rw [hp], by rw [hp], fun s hs => ⟨s, by rw [hp]; exact hs, rfl⟩⟩

/-- Running an action and then another one, when the first cannot stop. -/
theorem First.seq {k p k' p' : Nat} {a b : Act n} {m : M n} (ha : First k p m (a m).1)
    (hc : (a m).2 = .cont) (hb : ∀ m', First k p m m' → First k' p' m' (b m').1) :
    First (k + k') (p + p') m ((a ;; b) m).1 := by
  rw [Act.seq_def, if_pos hc]
  exact ha.trans (hb _ ha)

theorem invoke_out (env : Env n) (k : Nat) (m : M n) : (Act.invoke env k m).2 = .cont := by
  unfold Act.invoke
  split <;> rfl

theorem first_scatter {env : Env n} (ht : Tame env) (r : Scatter.Result n) (m : M n) :
    First r.initLen 0 m (Act.obsScatter env r m).1 := by
  unfold Act.obsScatter
  refine First.cast (k := 0 + (0 + (r.initLen + (0 + (0 + 0))))) (p := 0 + (0 + (0 + (0 + (0 + 0)))))
    (by omega) rfl ?_
  refine First.seq (first_upd1 m _ 0 fun s => ?_) rfl fun m1 _ => ?_
  · unfold Stage1.enterSubstage Stage1.setRefSetSize
    dsimp only
    split <;> rfl
  refine First.seq (first_inv ht (by decide) _) (invoke_out _ _ _) fun m2 _ => ?_
  refine First.seq (first_upd1 m2 _ r.initLen fun s => ?_) rfl fun m3 _ => ?_
  · unfold Stage1.enterSubstage Stage1.setRefSetSize Stage1.addEvals
    dsimp only
    split <;> rfl
  refine First.seq (first_inv ht (by decide) _) (invoke_out _ _ _) fun m4 _ => ?_
  refine First.seq (first_upd1 m4 _ 0 fun s => ?_) rfl fun m5 _ => first_inv ht (by decide) _
  unfold Stage1.enterSubstage Stage1.setRefSetSize Stage1.addTrialPoints
  dsimp only
  split <;> rfl

theorem first_done {env : Env n} (ht : Tame env) (ref : List (Pt n)) (objs : List F64) (m : M n) :
    First 0 0 m (Act.obsScatterDone env ref objs m).1 := by
  unfold Act.obsScatterDone
  refine First.cast (k := 0 + (0 + 0)) (p := 0 + (0 + 0)) rfl rfl ?_
  refine First.seq (first_upd1 m _ 0 fun s => ?_) rfl fun m1 _ => ?_
  · unfold Stage1.enterSubstage Stage1.setRefSetSize Stage1.setBest
    dsimp only
    (repeat' split) <;> rfl
  refine First.seq (first_inv ht (by decide) _) (invoke_out _ _ _) fun m2 _ => ?_
  refine first_upd1 m2 _ 0 fun s => ?_
  unfold Stage1.enterSubstage
  dsimp only
  split <;> rfl

theorem first_local1 {env : Env n} (ht : Tame env) (s : Sol n) (k : Nat) (m : M n) :
    First k 0 m (Act.obsLocal1 env s k m).1 := by
  unfold Act.obsLocal1
  refine First.cast (k := k + 0) (p := 0 + 0) rfl rfl ?_
  refine First.seq (first_upd1 m _ k fun s => ?_) rfl fun m1 _ => first_inv ht (by decide) _
  unfold Stage1.enterSubstage Stage1.setBest Stage1.addEvals
  dsimp only
  (repeat' split) <;> rfl

theorem first_end1 {env : Env n} (ht : Tame env) (m : M n) : First 0 0 m (Act.obsEnd1 env m).1 := by
  unfold Act.obsEnd1
  refine First.cast (k := 0 + (0 + 0)) (p := 0 + (0 + 0)) rfl rfl ?_
  refine First.seq (first_upd1 m _ 0 fun s => ?_) rfl fun m1 _ => ?_
  · unfold Stage1.enterSubstage Stage1.finish
    dsimp only
    (repeat' split) <;> rfl
  refine First.seq (first_inv ht (by decide) _) (invoke_out _ _ _) fun m2 _ => ?_
  refine ⟨by constructor <;> rfl, ⟨[], by simp [Act.modify], rfl, rfl, fun _ _ _ => rfl, rfl, by simp⟩, fun b hb => ?_⟩
  refine ⟨b.markStage1Complete, ?_, rfl, rfl, rfl, fun s hs => ⟨s, hs, rfl⟩⟩
  dsimp only [Act.modify, Opt.mapObs]
  rw [hb]; rfl

theorem end1_out (env : Env n) (m : M n) : (Act.obsEnd1 env m).2 = .cont := by
  unfold Act.obsEnd1
  rw [Act.seq_def, show (Act.modify (n := n) _ m).2 = .cont from rfl, if_pos rfl, Act.seq_def,
    invoke_out, if_pos rfl]
  rfl

theorem local1_out (env : Env n) (s : Sol n) (k : Nat) (m : M n) : (Act.obsLocal1 env s k m).2 = .cont := by
  unfold Act.obsLocal1
  rw [Act.seq_def, show (Act.modify (n := n) _ m).2 = .cont from rfl, if_pos rfl, invoke_out]

theorem first_store (ref : List (Pt n)) (m : M n) : First 0 0 m (Act.storeRef ref m).1 :=
  first_quiet m _ (by constructor <;> rfl) rfl rfl ⟨[], (List.append_nil _).symm, by simp⟩

/-- Evaluations of the local search from `p`. -/
def solverEvals (env : Env n) (o : Opt n) (p : Pt n) : Nat :=
  match env.solve o.lsType o.lsConfig p with
  | .ok (_, k) => k
  | .error _ => 0

theorem seen1_tracks {o : Opt n} {b : Obs n} {s : Stage1 n} (ho : o.obs = some b)
    (h : b.seen1 = some s) : o.tracks1 = true := by
  unfold Opt.tracks1
  rw [ho]
  simp only [Option.map_some, Option.getD_some, should1_iff, h, Option.isSome_some]

/-- A count that only matters if stage 1 is tracked. -/
theorem First.weaken {k k' p : Nat} {m m' : M n} (h : First k p m m')
    (hk : m.opt.tracks1 = true → k = k') : First k' p m m' := by
  refine ⟨h.1, h.2.1, fun b hb => ?_⟩
  obtain ⟨b', h0, h1, h2, h3, h4⟩ := h.2.2 b hb
  refine ⟨b', h0, h1, h2, h3, fun s hs => ?_⟩
  rw [← hk (seen1_tracks hb hs)]
  exact h4 s hs

theorem first_local {env : Env n} (ht : Tame env) (p : Pt n) (ref : List (Pt n)) (m : M n)
    (hf : ∀ e, (Act.stage1Local env p ref m).2 ≠ .fail e) :
    First (solverEvals env m.opt p) 1 m (Act.stage1Local env p ref m).1 := by
  unfold Act.stage1Local at hf ⊢
  unfold solverEvals
  cases hs : env.solve m.opt.lsType m.opt.lsConfig p with
  | error e => rw [hs] at hf; exact absurd rfl (hf _)
  | ok r =>
    obtain ⟨s, k⟩ := r
    rw [hs] at hf
    dsimp only at hf ⊢
    -- the search is recorded
    have h0 : First 0 0 m { m with trace := m.trace ++ [.search none p (.ok s)] } :=
      ⟨SameCfg.refl _, ⟨[_], rfl, rfl, rfl, fun _ _ _ => rfl, rfl, by simp [Event.early]⟩, fun b hb =>
        ⟨b, hb, rfl, rfl, rfl, fun s hs => ⟨s, hs, rfl⟩⟩⟩
    generalize hm0 : ({ m with trace := m.trace ++ [.search none p (.ok s)] } : M n) = m0 at *
    have htr : m0.opt = m.opt := by rw [← hm0]
    refine First.cast (k := 0 + k) (p := 0 + 1) (by omega) rfl (h0.trans ?_)
    rw [← htr] at hf ⊢
    rw [Act.seq_def, show (Act.setThreshold (n := n) s.objective m0).2 = .cont from rfl, if_pos rfl] at hf ⊢
    have h1 : First 0 0 m0 (Act.setThreshold s.objective m0).1 :=
      first_quiet _ _ (by constructor <;> rfl) rfl rfl ⟨[], (List.append_nil _).symm, by simp⟩
    have htr1 : (Act.setThreshold s.objective m0).1.opt.tracks1 = m0.opt.tracks1 := rfl
    refine First.cast (k := 0 + k) (p := 0 + 1) (by omega) rfl (h1.trans ?_)
    rw [← htr1] at hf ⊢
    generalize (Act.setThreshold s.objective m0).1 = m1 at *
    rw [Act.seq_def, local1_out, if_pos rfl] at hf ⊢
    have h2 : First k 0 m1
        (Act.obsLocal1 env s (if m1.opt.tracks1 = true then k else 0) m1).1 :=
      (first_local1 ht s _ m1).weaken fun h => by rw [if_pos h]
    refine First.cast (k := k + 0) (p := 0 + 1) (by omega) rfl (h2.trans ?_)
    generalize (Act.obsLocal1 env s (if m1.opt.tracks1 = true then k else 0) m1).1 = m2 at *
    unfold Act.process at hf ⊢
    dsimp only at hf ⊢
    by_cases hv : (m2.opt.process s).2 = .panic
    · rw [if_pos hv] at hf
      exact absurd rfl (hf _)
    · rw [if_neg hv] at hf ⊢
      have h3 : First 0 1 m2
          { m2 with opt := (m2.opt.process s).1
                    trace := m2.trace ++ [.processed s (m2.opt.process s).2] } := by
        obtain ⟨g, hg, hg'⟩ := process_obs m2.opt s
        refine ⟨Opt.process_cfg _ _, ⟨[_], rfl, rfl, rfl, fun _ _ _ => rfl, ?_, by simp [Event.early]⟩, fun b hb => ?_⟩
        · rw [process_solset _ _ hv]
          show _ = if _ then _ else _
          rw [if_neg hv]
        refine ⟨g b, by rw [hg, hb]; rfl, ?_⟩
        rcases hg' with rfl | rfl
        · exact ⟨rfl, rfl, rfl, fun s hs => ⟨s, hs, rfl⟩⟩
        · refine ⟨rfl, rfl, ?_, fun s hs => ⟨s, hs, rfl⟩⟩
          unfold Obs.mod2
          dsimp only
          cases b.stage2 <;> rfl
      refine First.cast (k := 0 + 0) (p := 1 + 0) (by omega) rfl (h3.trans ?_)
      split
      · rw [Act.seq_def, end1_out, if_pos rfl]
        exact first_end1 ht _
      · rw [Act.seq_def, show (Act.storeRef (n := n) ref _).2 = .cont from rfl, if_pos rfl]
        exact (first_store ref _).trans (first_end1 ht _)

theorem done_out (env : Env n) (ref : List (Pt n)) (objs : List F64) (m : M n) :
    (Act.obsScatterDone env ref objs m).2 = .cont := by
  unfold Act.obsScatterDone
  rw [Act.seq_def, show (Act.modify (n := n) _ m).2 = .cont from rfl, if_pos rfl, Act.seq_def,
    invoke_out, if_pos rfl]
  rfl

theorem scatter_out (env : Env n) (r : Scatter.Result n) (m : M n) :
    (Act.obsScatter env r m).2 = .cont := by
  unfold Act.obsScatter
  simp only [Act.seq_def, show ∀ f (m : M n), (Act.modify (n := n) f m).2 = .cont from fun _ _ => rfl,
    invoke_out, if_true]

/-- The state in which stage 2 is entered. -/
def enter2 (env : Env n) (sd : Nat) (m : M n) : M n :=
  (Act.setSeed sd (Act.obsStart2 env { m with uc := 0 }).1).1

/-- The shape of a run that does not fail, starting with stage 1. -/
theorem body_fresh_tally {env : Env n} (ht : Tame env) (m : M n)
    (hf : ∀ e, (Act.body env false m).2 ≠ .fail e) :
    ∃ r m4, Act.scatter env m.opt = .ok r ∧ .scatter r.evals ∈ m4.trace ∧
      First (r.initLen + solverEvals env m.opt r.best) 1 m m4 ∧
      (Act.body env false m = (m4, .stop) ∨ ∃ ref objs sd,
        Act.body env false m = Act.stage2Main env false 0 ref objs (enter2 env sd m4)) := by
  unfold Act.body at hf ⊢
  simp only [Bool.false_eq_true, if_false] at hf ⊢
  unfold Act.stage1 at hf ⊢
  cases hr : Act.scatter env m.opt with
  | error e => rw [hr] at hf; exact absurd rfl (hf e)
  | ok r =>
    rw [hr] at hf
    dsimp only at hf ⊢
    rw [Act.seq_def, show (Act.log (n := n) (.scatter r.evals) m).2 = .cont from rfl, if_pos rfl] at hf ⊢
    have h1 : First 0 0 m (Act.log (.scatter r.evals) m).1 :=
      first_quiet m _ (SameCfg.refl _) rfl rfl ⟨[_], rfl, by simp [Event.calm]⟩
    have hmem : Event.scatter r.evals ∈ (Act.log (.scatter r.evals) m).1.trace := by
      dsimp only [Act.log]; simp
    have htr : (Act.log (.scatter r.evals) m).1.opt.tracks1 = m.opt.tracks1 := rfl
    rw [← htr] at hf ⊢
    generalize (Act.log (.scatter r.evals) m).1 = m1 at *
    have h2 : First r.initLen 0 m1 ((if m1.opt.tracks1 = true then Act.obsScatter env r else Act.skip) m1).1 := by
      by_cases hc : m1.opt.tracks1 = true
      · rw [if_pos hc]; exact first_scatter ht r m1
      · rw [if_neg hc]
        exact (first_quiet m1 m1 (SameCfg.refl _) rfl rfl ⟨[], by simp, by simp⟩).weaken fun h => absurd h hc
    have o2 : ((if m1.opt.tracks1 = true then Act.obsScatter env r else Act.skip) m1).2 = .cont := by
      split
      · exact scatter_out env r m1
      · rfl
    rw [Act.seq_def, o2, if_pos rfl] at hf ⊢
    have h12 := h1.trans h2
    have hmem2 : Event.scatter r.evals ∈
        ((if m1.opt.tracks1 = true then Act.obsScatter env r else Act.skip) m1).1.trace := by
      obtain ⟨t, h, _⟩ := h2.2.1
      rw [h]; exact List.mem_append_left _ hmem
    generalize ((if m1.opt.tracks1 = true then Act.obsScatter env r else Act.skip) m1).1 = m2 at *
    rw [Act.seq_def, done_out, if_pos rfl] at hf ⊢
    have h3 := first_done ht (r.ref.map Prod.fst) (r.ref.map Prod.snd) m2
    have hmem3 : Event.scatter r.evals ∈
        (Act.obsScatterDone env (r.ref.map Prod.fst) (r.ref.map Prod.snd) m2).1.trace := by
      obtain ⟨t, h, _⟩ := h3.2.1
      rw [h]; exact List.mem_append_left _ hmem2
    have h13 := h12.trans h3
    generalize (Act.obsScatterDone env (r.ref.map Prod.fst) (r.ref.map Prod.snd) m2).1 = m3 at *
    have hnf : ∀ e, (Act.stage1Local env r.best (r.ref.map Prod.fst) m3).2 ≠ .fail e := by
      intro e he
      rw [Act.seq_def, he, if_neg (by simp)] at hf
      exact hf e he
    have h4 := first_local ht r.best (r.ref.map Prod.fst) m3 hnf
    have hsol : solverEvals env m3.opt r.best = solverEvals env m.opt r.best := by
      unfold solverEvals
      rw [h13.1.lsType, h13.1.lsConfig]
    rw [hsol] at h4
    have hmem4 : Event.scatter r.evals ∈
        (Act.stage1Local env r.best (r.ref.map Prod.fst) m3).1.trace := by
      obtain ⟨t, h, _⟩ := h4.2.1
      rw [h]; exact List.mem_append_left _ hmem3
    have h14 := h13.trans h4
    refine ⟨r, (Act.stage1Local env r.best (r.ref.map Prod.fst) m3).1, rfl, hmem4,
      First.cast (by omega) (by omega) h14, ?_⟩
    rw [Act.seq_def] at hf ⊢
    cases ho : (Act.stage1Local env r.best (r.ref.map Prod.fst) m3).2 with
    | fail e => exact absurd ho (hnf e)
    | stop =>
      rw [if_neg (by simp)]
      exact Or.inl (Prod.ext rfl ho)
    | cont =>
      rw [ho, if_pos rfl] at hf
      rw [if_pos rfl]
      right
      generalize (Act.stage1Local env r.best (r.ref.map Prod.fst) m3).1 = m4 at *
      rw [Act.seq_def, if_pos rfl] at hf ⊢
      dsimp only at hf ⊢
      unfold Act.stage2 at hf ⊢
      rw [Act.seq_def, show (Act.obsStart2 (n := n) env _).2 = .cont from rfl, if_pos rfl] at hf ⊢
      simp only [Bool.false_eq_true, if_false] at hf ⊢
      cases hsd : Opt.shuffleSeed env
          (Act.obsStart2 env { m4 with uc := 0 }).1.opt.params.seed
          (Act.obsStart2 env { m4 with uc := 0 }).1.opt.curIter with
      | none => rw [hsd] at hf; exact absurd rfl (hf _)
      | some sd =>
        dsimp only
        rw [Act.seq_def, show (Act.setSeed (n := n) sd _).2 = .cont from rfl, if_pos rfl]
        exact ⟨_, _, sd, rfl⟩

/-- What the start of stage 2 does to the observer. -/
theorem start2_seen (env : Env n) (m : M n) (s : Stage2 n) (h : m.seen2 = some s) :
    ∃ s', (Act.obsStart2 env m).1.seen2 = some s' ∧ s'.localCalls = s.localCalls ∧
      s'.improvedCalls = s.improvedCalls ∧ s'.functionEvaluations = s.functionEvaluations ∧
      SizeOk s' m.opt.solset := by
  unfold M.seen2 at h ⊢
  unfold Act.obsStart2 Act.modify Opt.mapObs
  dsimp only
  cases ho : m.opt.obs with
  | none => rw [ho] at h; cases h
  | some b =>
    rw [ho] at h
    have h : b.seen2 = some s := h
    have hmark : ∀ x : Obs n, x.markStage2Started.seen2 = x.seen2 := fun _ => rfl
    simp only [Option.map_some, Option.bind_some, hmark, seen2_upd2, h]
    refine ⟨_, rfl, ?_⟩
    cases m.opt.solset with
    | none => exact ⟨rfl, rfl, rfl, fun l hl => by cases hl⟩
    | some set =>
      dsimp only [Stage2.setThreshold, Stage2.setSize, Stage2.setBest, Stage2.start]
      cases bestSolution set with
      | none => exact ⟨rfl, rfl, rfl, fun l hl => by cases hl; rfl⟩
      | some best =>
        dsimp only
        split <;> exact ⟨rfl, rfl, rfl, fun l hl => by cases hl; rfl⟩

theorem start2_cfg (env : Env n) (m : M n) : SameCfg m.opt (Act.obsStart2 env m).1.opt ∧
    (Act.obsStart2 env m).1.trace = m.trace ∧ (Act.obsStart2 env m).1.opt.solset = m.opt.solset ∧
    (Act.obsStart2 env m).1.opt.obs.map Obs.stage2Started = m.opt.obs.map (fun _ => true) := by
  refine ⟨by constructor <;> rfl, rfl, rfl, ?_⟩
  unfold Act.obsStart2 Act.modify Opt.mapObs
  dsimp only
  cases m.opt.obs <;> rfl

/-! ### Stage 2 leaves the numbers of stage 1 alone -/

/-- The stage-1 numbers do not change. -/
def Keep1 (m m' : M n) : Prop := ∀ b, m.opt.obs = some b → ∃ b', m'.opt.obs = some b' ∧
  b'.mode = b.mode ∧ b'.stage1 = b.stage1

theorem keep1_obs (m m' : M n) (g : Obs n → Obs n) (hm : m'.opt.obs = m.opt.obs.map g)
    (h : ∀ b, (g b).mode = b.mode ∧ (g b).stage1 = b.stage1) : Keep1 m m' := by
  intro b hb
  rw [hb] at hm
  exact ⟨g b, hm, h b⟩

theorem keep1_upd2 (m : M n) (f : Stage2 n → Stage2 n) :
    Keep1 m { m with opt := m.opt.mapObs fun b => b.upd2 f } :=
  keep1_obs m _ _ rfl fun b => by
    obtain ⟨x, hx⟩ := upd2_rest b f
    exact ⟨by rw [hx], by rw [hx]⟩

theorem keep1_trans {a b c : M n} (h : Keep1 a b) (k : Keep1 b c) : Keep1 a c := by
  intro x hx
  obtain ⟨y, hy, h1, h2⟩ := h x hx
  obtain ⟨z, hz, k1, k2⟩ := k y hy
  exact ⟨z, hz, k1.trans h1, k2.trans h2⟩

theorem keep1Track {env : Env n} (ht : Tame env) : TrackPar env false (Keep1 (n := n)) where
  refl m b hb := ⟨b, hb, rfl, rfl⟩
  trans := keep1_trans
  quiet m m' _ ho _ _ b hb := ⟨b, ho.trans hb, rfl, rfl⟩
  iter i m _ := keep1_upd2 m _
  inv k m _ := by
    unfold Act.invoke
    split
    · exact fun b hb => ⟨b, hb, rfl, rfl⟩
    · rename_i b hb
      obtain ⟨p, hp⟩ := invoke_prev ht k b
      refine keep1_obs m _ (fun b => { b with prev := p }) ?_ fun _ => ⟨rfl, rfl⟩
      dsimp only
      rw [hp, hb]; rfl
  end2 m _ := keep1_upd2 m _
  work m es _ b hb := ⟨b, hb, rfl, rfl⟩
  evals k m _ := keep1_upd2 m _
  proc s k m _ := by
    unfold Act.process
    dsimp only
    have h1 : Keep1 m
        { m with opt := (m.opt.process s).1, trace := m.trace ++ [.processed s (m.opt.process s).2] } := by
      obtain ⟨g, hg, hg'⟩ := process_obs m.opt s
      refine keep1_obs m _ g hg fun b => ?_
      rcases hg' with rfl | rfl <;> exact ⟨rfl, rfl⟩
    split
    · exact h1
    · exact keep1_trans h1 (keep1_upd2 _ _)

theorem keep1_start2 (env : Env n) (m : M n) : Keep1 m (Act.obsStart2 env m).1 :=
  keep1_obs m _ _ rfl fun b => by
    obtain ⟨x, hx⟩ := upd2_rest b _
    exact ⟨by unfold Obs.markStage2Started; rw [hx], by unfold Obs.markStage2Started; rw [hx]⟩

end GS
