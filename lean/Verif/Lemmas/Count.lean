/- Upper bounds on the number of local searches and evaluations of an action. -/
import Verif.Lemmas.Built

namespace GS
variable {n : Nat}

/-- The action starts at most `f` stage-1 searches and `s` stage-2 searches and evaluates at most `e`
points. -/
def Bound (a : Act n) (f s e : Nat) : Prop := ∀ m, ∃ t, (a m).1.trace = m.trace ++ t ∧
  (firstSearches t).length ≤ f ∧ (searched t).length ≤ s ∧ (evaluated t).length ≤ e

theorem Bound.mono {a : Act n} {f s e f' s' e' : Nat} (h : Bound a f s e) (hf : f ≤ f') (hs : s ≤ s')
    (he : e ≤ e') : Bound a f' s' e' := by
  intro m
  obtain ⟨t, a, b, c, d⟩ := h m
  exact ⟨t, a, by omega, by omega, by omega⟩

theorem Bound.seq {a b : Act n} {f s e f' s' e' : Nat} (ha : Bound a f s e) (hb : Bound b f' s' e') :
    Bound (a ;; b) (f + f') (s + s') (e + e') := by
  intro m
  rw [Act.seq_def]
  obtain ⟨t, h1, h2, h3, h4⟩ := ha m
  split
  · obtain ⟨t', k1, k2, k3, k4⟩ := hb (a m).1
    refine ⟨t ++ t', by rw [k1, h1, List.append_assoc], ?_, ?_, ?_⟩
    · rw [firstSearches_append, List.length_append]; omega
    · rw [searched_append, List.length_append]; omega
    · rw [evaluated_append, List.length_append]; omega
  · exact ⟨t, h1, by omega, by omega, by omega⟩

theorem Bound.all {α : Type} (l : List α) (g : α → Act n) {f s e : Nat}
    (h : ∀ a ∈ l, Bound (g a) f s e) :
    Bound (Act.all (l.map g)) (l.length * f) (l.length * s) (l.length * e) := by
  induction l with
  | nil => intro m; exact ⟨[], by simp [Act.all, Act.skip], by simp [firstSearches], by simp [searched],
      by simp [evaluated]⟩
  | cons a l ih =>
    have := (h a (by simp)).seq (ih fun x hx => h x (by simp [hx]))
    refine this.mono ?_ ?_ ?_ <;> rw [List.length_cons, Nat.succ_mul] <;> omega

/-- Quiet actions that log neither searches nor evaluations. -/
def Event.silent : Event n → Bool
  | .search .. | .evaluate .. => false
  | _ => true

theorem Bound.silent {a : Act n} (h : ∀ m, ∃ t, (a m).1.trace = m.trace ++ t ∧
    ∀ e ∈ t, e.silent = true) : Bound a 0 0 0 := by
  intro m
  obtain ⟨t, h1, h2⟩ := h m
  refine ⟨t, h1, ?_, ?_, ?_⟩ <;>
  · rw [Nat.le_zero, List.length_eq_zero_iff]
    first | unfold firstSearches | unfold searched | unfold evaluated
    rw [List.filterMap_eq_nil_iff]
    intro e he
    have := h2 e he
    cases e <;> first | rfl | simp [Event.silent] at this

theorem Bound.same {a : Act n} (h : ∀ m, (a m).1.trace = m.trace) : Bound a 0 0 0 :=
  Bound.silent fun m => ⟨[], by rw [h m, List.append_nil], by simp⟩

theorem Bound.obs {f : Opt n → Obs n → Obs n} : Bound (Act.modify fun o => o.mapObs (f o)) 0 0 0 :=
  Bound.same fun _ => rfl
theorem Bound.skip : Bound (Act.skip (n := n)) 0 0 0 := Bound.same fun _ => rfl
theorem Bound.beginIter (env : Env n) (i : Nat) : Bound (Act.beginIter env i) 0 0 0 := by
  apply Bound.same; intro m; unfold Act.beginIter; dsimp only; split <;> rfl
theorem Bound.obsIter (i : Nat) : Bound (Act.obsIter (n := n) i) 0 0 0 := Bound.same fun _ => rfl
theorem Bound.setThreshold (v : F64) : Bound (Act.setThreshold (n := n) v) 0 0 0 :=
  Bound.same fun _ => rfl
theorem Bound.stopIfTarget : Bound (Act.stopIfTarget (n := n)) 0 0 0 := Bound.same fun _ => rfl
theorem Bound.log {e : Event n} (h : e.silent = true) : Bound (Act.log e) 0 0 0 :=
  Bound.silent fun _ => ⟨[e], rfl, by simpa using h⟩
theorem Bound.reject (i : Nat) : Bound (Act.reject (n := n) i) 0 0 0 := by
  apply Bound.silent
  intro m
  unfold Act.reject
  split
  · exact ⟨[_], rfl, by simp [Event.silent]⟩
  · exact ⟨[], by simp, by simp⟩
theorem Bound.invoke (env : Env n) (k : Nat) : Bound (Act.invoke env k) 0 0 0 := by
  apply Bound.silent
  intro m
  unfold Act.invoke
  split
  · exact ⟨[], by simp, by simp⟩
  · dsimp only
    split
    · exact ⟨[_], rfl, by simp [Event.silent]⟩
    · exact ⟨[], by simp, by simp⟩
theorem Bound.callback (env : Env n) (k : Nat) : Bound (Act.callback env k) 0 0 0 := by
  intro m
  unfold Act.callback
  split
  · exact Bound.skip m
  · split
    · exact Bound.skip m
    · exact Bound.invoke env _ m
    · exact Bound.skip m
theorem Bound.writeCkpt (env : Env n) : Bound (Act.writeCkpt env) 0 0 0 := by
  apply Bound.silent
  intro m
  unfold Act.writeCkpt
  dsimp only
  split <;> exact ⟨[_], rfl, by simp [Event.silent]⟩
theorem Bound.save (env : Env n) : Bound (Act.save env) 0 0 0 := by
  intro m
  unfold Act.save
  split
  · exact Bound.skip m
  · split
    · exact Bound.skip m
    · split
      · exact Bound.writeCkpt env m
      · exact Bound.skip m
theorem Bound.saveFinal (env : Env n) : Bound (Act.saveFinal env) 0 0 0 := by
  intro m
  unfold Act.saveFinal
  split
  · exact Bound.skip m
  · exact Bound.writeCkpt env m

theorem Bound.process {s : Sol n} {k : Verdict → Act n} {f c e : Nat} (hk : ∀ v, Bound (k v) f c e) :
    Bound (Act.process s k) f c e := by
  intro m
  unfold Act.process
  dsimp only
  split
  · refine ⟨[_], rfl, ?_, ?_, ?_⟩ <;> simp [firstSearches, searched, evaluated]
  · obtain ⟨t, a, b, c, d⟩ := hk (m.opt.process s).2
      { m with opt := (m.opt.process s).1, trace := m.trace ++ [.processed s (m.opt.process s).2] }
    refine ⟨.processed s (m.opt.process s).2 :: t, by rw [a]; simp, ?_, ?_, ?_⟩
    · simpa [firstSearches] using b
    · simpa [searched] using c
    · simpa [evaluated] using d

theorem Bound.search {env : Env n} {ty : SolverType} {cfg : SolverConfig} {iter : Nat} {p : Pt n}
    {k : Sol n → Nat → Act n} {f c e : Nat} (hk : ∀ s v, Bound (k s v) f c e) :
    Bound (Act.search env ty cfg (some iter) p k) f (1 + c) e := by
  intro m
  unfold Act.search
  split
  · refine ⟨[_], rfl, ?_, ?_, ?_⟩ <;> simp [firstSearches, searched, evaluated]
  · rename_i s v _
    obtain ⟨t, a, b, c, d⟩ := hk s (if m.opt.tracks2 = true then v else 0)
      { m with trace := m.trace ++ [.search (some iter) p (.ok s)] }
    refine ⟨.search (some iter) p (.ok s) :: t, by rw [a]; simp, ?_, ?_, ?_⟩
    · simpa [firstSearches] using b
    · have : searched (.search (some iter) p (.ok s) :: t) = (iter, p) :: searched t := by
        simp [searched]
      rw [this, List.length_cons]; omega
    · simpa [evaluated] using d

theorem Bound.localSeq (env : Env n) (i : Nat) (p : Pt n) (v : F64) :
    Bound (Act.localSeq env i p v) 0 1 0 := by
  intro m
  unfold Act.localSeq
  exact ((Bound.setThreshold v).seq (Bound.search (f := 0) (c := 0) (e := 0) fun s w =>
    Bound.process fun v => (Bound.obs).seq Bound.stopIfTarget)).mono (by omega) (by omega) (by omega) m

theorem Bound.getMerit {objs : Option (List F64)} {iter : Nat} {p : Pt n} {k : F64 → Act n}
    {f c e : Nat} (hk : ∀ v, Bound (k v) f c e) :
    Bound (Act.getMerit objs iter p k) f c ((if objs.isNone then 1 else 0) + e) := by
  intro m
  unfold Act.getMerit
  dsimp only
  cases ho : objs.isNone
  · simp only [Bool.false_eq_true, if_false]
    split
    · exact ⟨[], by simp, by simp [firstSearches], by simp [searched], by simp [evaluated]⟩
    · have := (Bound.skip.seq (hk ‹F64›)) m
      simpa using this
  · simp only [if_true]
    split
    · refine ⟨[_], rfl, ?_, ?_, ?_⟩
      · simp [firstSearches]
      · simp [searched]
      · simp [evaluated]
    · rename_i v _
      have hq : Bound (Act.obsEvals (n := n) 1) 0 0 0 := Bound.obs
      obtain ⟨t, a, b, c, d⟩ := (hq.seq (hk v))
        { m with trace := m.trace ++ [.evaluate iter p] }
      refine ⟨.evaluate iter p :: t, by rw [a]; simp, ?_, ?_, ?_⟩
      · have : firstSearches (.evaluate iter p :: t) = firstSearches t := by simp [firstSearches]
        rw [this]; omega
      · have : searched (.evaluate iter p :: t) = searched t := by simp [searched]
        rw [this]; omega
      · have : evaluated (.evaluate iter p :: t) = (iter, p) :: evaluated t := by simp [evaluated]
        rw [this, List.length_cons]; omega

/-- One for a run that evaluates the objective itself in stage 2. -/
def evalCost (objs : Option (List F64)) : Nat := if objs.isNone then 1 else 0

theorem Bound.stepSeq (env : Env n) (r : Bool) (st : Nat) (objs : Option (List F64))
    (it : Nat × Pt n) : Bound (Act.stepSeq env r st objs it) 0 1 (evalCost objs) := by
  unfold Act.stepSeq
  split
  · exact Bound.skip.mono (by omega) (by omega) (by omega)
  · refine ((Bound.beginIter env _).seq ((Bound.obsIter _).seq (Bound.getMerit (f := 0) (c := 1) (e := 0)
      fun v => ?_))).mono (by omega) (by omega) (by unfold evalCost; omega)
    intro m
    refine ((Bound.log (e := .examine it.1 it.2 v (m.opt.shouldStart it.2 v)) rfl).seq (Bound.seq
      (f := 0) (s := 1) (e := 0) ?_ ((Bound.callback env _).seq (Bound.save env)))).mono
      (by omega) (by omega) (by omega) m
    split
    · exact Bound.localSeq env _ _ _
    · exact (Bound.reject _).mono (by omega) (by omega) (by omega)

theorem Bound.batchSeq (env : Env n) (r : Bool) (st : Nat) (objs : Option (List F64))
    (its : List (Nat × Pt n)) :
    Bound (Act.batchSeq env r st objs its) 0 its.length (its.length * evalCost objs) :=
  (Bound.all its _ fun it _ => Bound.stepSeq env r st objs it).mono (by omega) (by omega) (by omega)

theorem Bound.quickPar (env : Env n) (i : Nat) : Bound (Act.quickPar env i) 0 0 0 :=
  (Bound.beginIter env _).seq ((Bound.reject _).seq ((Bound.obsIter _).seq
    ((Bound.callback env _).seq (Bound.save env))))

theorem Bound.resultPar (env : Env n) (i : Nat) (v : F64) (s : Sol n) (e : Nat) :
    Bound (Act.resultPar env i v s e) 0 0 0 :=
  (Bound.beginIter env _).seq ((Bound.setThreshold _).seq (Bound.process fun _ =>
    Bound.obs.seq ((Bound.obsIter _).seq ((Bound.callback env _).seq
      (Bound.stopIfTarget.seq (Bound.save env))))))

theorem Bound.singlePar (env : Env n) (i : Nat) (p : Pt n) (v : F64) :
    Bound (Act.singlePar env i p v) 0 1 0 := by
  intro m
  unfold Act.singlePar
  exact ((Bound.beginIter env _).seq ((Bound.setThreshold _).seq (Bound.search (f := 0) (c := 0) (e := 0)
    fun s e => Bound.process fun v => Bound.obs.seq ((Bound.obsIter _).seq ((Bound.invoke env _).seq
      (Bound.stopIfTarget.seq (Bound.save env))))))).mono (by omega) (by omega) (by omega) m

theorem Bound.groupPar (env : Env n) (k : Nat) (c : List (Nat × Pt n × F64)) :
    Bound (Act.groupPar env k c) 0 c.length 0 := by
  intro m
  unfold Act.groupPar
  have h1 : firstSearches (c.map (Act.solveEvent env m.opt)) = [] := by
    unfold firstSearches
    rw [List.filterMap_eq_nil_iff]
    intro e he
    rw [List.mem_map] at he
    obtain ⟨_, _, rfl⟩ := he
    rfl
  have h2 : (searched (c.map (Act.solveEvent env m.opt))).length ≤ c.length := by
    unfold searched
    refine (List.length_filterMap_le _ _).trans ?_
    rw [List.length_map]
  have h3 : evaluated (c.map (Act.solveEvent env m.opt)) = [] := by
    unfold evaluated
    rw [List.filterMap_eq_nil_iff]
    intro e he
    rw [List.mem_map] at he
    obtain ⟨_, _, rfl⟩ := he
    rfl
  split
  · exact ⟨_, rfl, by rw [h1]; simp, h2, by rw [h3]; simp⟩
  · rename_i rs _
    obtain ⟨t, a, b, d, e⟩ := Bound.all rs (fun r => Act.resultPar env r.1 r.2.1 r.2.2.1 r.2.2.2)
      (fun r _ => Bound.resultPar env r.1 r.2.1 r.2.2.1 r.2.2.2)
      { m with trace := m.trace ++ c.map (Act.solveEvent env m.opt) }
    refine ⟨c.map (Act.solveEvent env m.opt) ++ t, by rw [a, List.append_assoc], ?_, ?_, ?_⟩
    · rw [firstSearches_append, h1, List.nil_append]; omega
    · rw [searched_append, List.length_append]; omega
    · rw [evaluated_append, h3, List.nil_append]; omega

theorem Bound.localsPar (env : Env n) (k : Nat) (c : List (Nat × Pt n × F64)) :
    Bound (Act.localsPar env k c) 0 c.length 0 := by
  intro m
  unfold Act.localsPar
  split
  · exact Bound.groupPar env k c m
  · exact (Bound.all c (fun c => Act.singlePar env c.1 c.2.1 c.2.2)
      fun x _ => Bound.singlePar env _ _ _).mono (by omega) (by omega) (by omega) m

theorem Bound.afterEval (env : Env n) (objs : Option (List F64)) (k : Nat)
    (vals : List (Nat × Pt n × F64)) : Bound (Act.afterEval env objs k vals) 0 vals.length 0 := by
  intro m
  unfold Act.afterEval
  have hq : Bound (if objs.isNone = true then Act.obsEvals (n := n) vals.length else Act.skip) 0 0 0 := by
    split
    · exact Bound.obs
    · exact Bound.skip
  obtain ⟨t, a, b, c, d⟩ := (hq.seq ((Bound.all (vals.filter fun c => !Act.passes m.opt c)
    (fun c => Act.quickPar env c.1) fun x _ => Bound.quickPar env x.1).seq
      (Bound.localsPar env k (vals.filter (Act.passes m.opt)))))
    { m with trace := m.trace ++ vals.map fun c => Event.examine c.1 c.2.1 c.2.2 (Act.passes m.opt c) }
  have hl := List.length_filter_le (Act.passes m.opt) vals
  have g : ∀ (β : Type) (f : Event n → Option β), (∀ it p v ok, f (.examine it p v ok) = none) →
      (vals.map fun c => Event.examine c.1 c.2.1 c.2.2 (Act.passes m.opt c)).filterMap f = [] := by
    intro β f hf
    rw [List.filterMap_eq_nil_iff]
    intro e he
    rw [List.mem_map] at he
    obtain ⟨_, _, rfl⟩ := he
    exact hf _ _ _ _
  refine ⟨(vals.map fun c => Event.examine c.1 c.2.1 c.2.2 (Act.passes m.opt c)) ++ t,
    by rw [a, List.append_assoc], ?_, ?_, ?_⟩
  · rw [firstSearches_append, show firstSearches (vals.map _) = [] from g _ _ fun _ _ _ _ => rfl,
      List.nil_append]; omega
  · rw [searched_append, show searched (vals.map _) = [] from g _ _ fun _ _ _ _ => rfl,
      List.nil_append]; omega
  · rw [evaluated_append, show evaluated (vals.map _) = [] from g _ _ fun _ _ _ _ => rfl,
      List.nil_append]; omega

theorem Bound.batchParItems (env : Env n) (objs : Option (List F64)) (its : List (Nat × Pt n)) :
    Bound (Act.batchParItems env objs its) 0 its.length (its.length * evalCost objs) := by
  cases its with
  | nil => exact Bound.skip.mono (by omega) (by omega) (by omega)
  | cons it0 its =>
    intro m
    unfold Act.batchParItems
    have hlog : ∃ t, (Act.logEvals objs (it0 :: its) m).trace = m.trace ++ t ∧
        (firstSearches t).length ≤ 0 ∧ (searched t).length ≤ 0 ∧
        (evaluated t).length ≤ (it0 :: its).length * evalCost objs := by
      unfold Act.logEvals evalCost
      split
      · refine ⟨_, rfl, ?_, ?_, ?_⟩
        · rw [Nat.le_zero, List.length_eq_zero_iff]
          unfold firstSearches
          rw [List.filterMap_eq_nil_iff]
          intro e he
          rw [List.mem_map] at he
          obtain ⟨_, _, rfl⟩ := he
          rfl
        · rw [Nat.le_zero, List.length_eq_zero_iff]
          unfold searched
          rw [List.filterMap_eq_nil_iff]
          intro e he
          rw [List.mem_map] at he
          obtain ⟨_, _, rfl⟩ := he
          rfl
        · unfold evaluated
          refine (List.length_filterMap_le _ _).trans ?_
          rw [List.length_map]; omega
      · exact ⟨[], by simp, by simp [firstSearches], by simp [searched], by simp [evaluated]⟩
    obtain ⟨t, a, b, c, d⟩ := hlog
    dsimp only
    split
    · exact ⟨t, a, b, by omega, d⟩
    · rename_i vals hv
      have hlen : vals.length = (it0 :: its).length := by
        have := congrArg List.length (parCollect_ok hv)
        simpa using this.symm
      obtain ⟨t', a', b', c', d'⟩ := Bound.afterEval env objs it0.1 vals
        (Act.logEvals objs (it0 :: its) m)
      refine ⟨t ++ t', by rw [a', a, List.append_assoc], ?_, ?_, ?_⟩
      · rw [firstSearches_append, List.length_append]; omega
      · rw [searched_append, List.length_append]; omega
      · rw [evaluated_append, List.length_append]; omega

theorem Bound.procBatch (env : Env n) (r : Bool) (st : Nat) (objs : Option (List F64)) (eff : Nat)
    (b : List (Nat × Pt n)) :
    Bound (Act.procBatch env r st objs eff b) 0 b.length (b.length * evalCost objs) := by
  unfold Act.procBatch
  split
  · unfold Act.batchPar
    refine (Bound.batchParItems env objs _).mono (by omega) ?_ ?_
    · split
      · exact List.length_filter_le _ _
      · exact Nat.le_refl _
    · apply Nat.mul_le_mul_right
      split
      · exact List.length_filter_le _ _
      · exact Nat.le_refl _
  · exact Bound.batchSeq env r st objs b

theorem Bound.loop (env : Env n) (r : Bool) (st : Nat) (objs : Option (List F64)) (eff k : Nat)
    (bs : List (List (Nat × Pt n))) :
    Bound (Act.loop env r st objs eff k bs) 0 bs.flatten.length
      (bs.flatten.length * evalCost objs) := by
  induction bs generalizing k with
  | nil => exact Bound.skip.mono (by omega) (by omega) (by omega)
  | cons b bs ih =>
    intro m
    unfold Act.loop
    rw [List.flatten_cons, List.length_append, Nat.add_mul]
    split
    · exact ⟨[], by simp, by simp [firstSearches], by simp [searched], by simp [evaluated]⟩
    · obtain ⟨t, a, b', c, d⟩ := Bound.procBatch env r st objs eff b m
      split
      · rename_i m' e he
        rw [he] at a
        exact ⟨t, a, b', by omega, by omega⟩
      · rename_i m' out _ he
        rw [he] at a
        split
        · exact ⟨t, a, b', by omega, by omega⟩
        · obtain ⟨t', a2, b2, c2, d2⟩ := ih (k + 1) m'
          refine ⟨t ++ t', by rw [a2, a, List.append_assoc], ?_, ?_, ?_⟩
          · rw [firstSearches_append, List.length_append]; omega
          · rw [searched_append, List.length_append]; omega
          · rw [evaluated_append, List.length_append]; omega

/-- Stage 2 for an optimizer with at most `N` iterations. -/
theorem bound_stage2Main (env : Env n) (r : Bool) (st : Nat) (ref : List (Pt n))
    (objs : Option (List F64)) (m : M n) : ∃ t, (Act.stage2Main env r st ref objs m).1.trace =
      m.trace ++ t ∧ (firstSearches t).length ≤ 0 ∧
      (searched t).length ≤ m.opt.params.iterations - st ∧
      (evaluated t).length ≤ (m.opt.params.iterations - st) * evalCost objs := by
  unfold Act.stage2Main
  split
  · exact ⟨[], by simp, by simp [firstSearches], by simp [searched], by simp [evaluated]⟩
  · have hb := (Bound.loop env r st objs (m.opt.effBatch env.threads st) 0
      (chunks (m.opt.effBatch env.threads st) (Act.items m.opt.params.iterations st ref)))
    rw [chunks_flatten _ (by omega), items_length] at hb
    have h2 : Bound (Act.obsEnd2 env ;; Act.saveFinal env) 0 0 0 := Bound.obs.seq (Bound.saveFinal env)
    refine (hb.seq h2).mono (by omega) (by omega) ?_ m
    rw [Nat.add_zero]
    exact Nat.mul_le_mul_right _ (by omega)

theorem Bound.obsScatter (env : Env n) (r : Scatter.Result n) : Bound (Act.obsScatter env r) 0 0 0 :=
  Bound.obs.seq ((Bound.invoke env _).seq (Bound.obs.seq ((Bound.invoke env _).seq
    (Bound.obs.seq (Bound.invoke env _)))))

theorem Bound.stage1Local (env : Env n) (p : Pt n) (ref : List (Pt n)) :
    Bound (Act.stage1Local env p ref) 1 0 0 := by
  intro m
  unfold Act.stage1Local
  split
  · refine ⟨[_], rfl, ?_, ?_, ?_⟩ <;> simp [firstSearches, searched, evaluated]
  · rename_i s evals _
    have hend : Bound (Act.obsEnd1 env) 0 0 0 :=
      Bound.obs.seq ((Bound.invoke env _).seq Bound.obs)
    have hb : Bound (Act.setThreshold s.objective ;;
      Act.obsLocal1 env s (if m.opt.tracks1 = true then evals else 0) ;;
      Act.process s fun _ => fun m' =>
        if m'.opt.targetReached then (Act.obsEnd1 env ;; fun m'' => (m'', .stop)) m'
        else (Act.storeRef ref ;; Act.obsEnd1 env) m') 0 0 0 := by
      have hl : Bound (Act.obsLocal1 env s (if m.opt.tracks1 = true then evals else 0)) 0 0 0 :=
        Bound.obs.seq (Bound.invoke env _)
      refine (Bound.setThreshold _).seq (f' := 0) (s' := 0) (e' := 0)
        (hl.seq (f' := 0) (s' := 0) (e' := 0) (Bound.process fun _ => ?_))
      intro m'
      dsimp only
      split
      · exact (hend.seq (f' := 0) (s' := 0) (e' := 0) (Bound.same fun _ => rfl)) m'
      · exact (Bound.seq (f := 0) (s := 0) (e := 0) (Bound.same fun _ => rfl) hend) m'
    obtain ⟨t, a, b, c, d⟩ := hb { m with trace := m.trace ++ [.search none p (.ok s)] }
    refine ⟨.search none p (.ok s) :: t, by rw [a]; simp, ?_, ?_, ?_⟩
    · have : firstSearches (.search none p (.ok s) :: t) = p :: firstSearches t := by
        simp [firstSearches]
      rw [this, List.length_cons]; omega
    · have : searched (.search none p (.ok s) :: t) = searched t := by simp [searched]
      rw [this]; omega
    · have : evaluated (.search none p (.ok s) :: t) = evaluated t := by simp [evaluated]
      rw [this]; omega

/-- Sequencing with a continuation whose bound depends on the parameters of the run. -/
theorem bound_seq {a b : Act n} {env : Env n} {f s e f' : Nat} {S E : Params → Nat}
    (ha : Bound a f s e) (hst : Steps env a)
    (hb : ∀ m, ∃ t, (b m).1.trace = m.trace ++ t ∧ (firstSearches t).length ≤ f' ∧
      (searched t).length ≤ S m.opt.params ∧ (evaluated t).length ≤ E m.opt.params) (m : M n) :
    ∃ t, ((a ;; b) m).1.trace = m.trace ++ t ∧ (firstSearches t).length ≤ f + f' ∧
      (searched t).length ≤ s + S m.opt.params ∧ (evaluated t).length ≤ e + E m.opt.params := by
  rw [Act.seq_def]
  obtain ⟨t, h1, h2, h3, h4⟩ := ha m
  have hp := (hst m).cfg.params
  split
  · obtain ⟨t', k1, k2, k3, k4⟩ := hb (a m).1
    rw [hp] at k3 k4
    refine ⟨t ++ t', by rw [k1, h1, List.append_assoc], ?_, ?_, ?_⟩
    · rw [firstSearches_append, List.length_append]; omega
    · rw [searched_append, List.length_append]; omega
    · rw [evaluated_append, List.length_append]; omega
  · exact ⟨t, h1, by omega, by omega, by omega⟩

theorem bound_stage2 (env : Env n) (r : Bool) (ref : List (Pt n)) (objs : Option (List F64)) (m : M n) :
    ∃ t, (Act.stage2 env r ref objs m).1.trace = m.trace ++ t ∧ (firstSearches t).length ≤ 0 + 0 ∧
      (searched t).length ≤ 0 + m.opt.params.iterations ∧
      (evaluated t).length ≤ 0 + m.opt.params.iterations * evalCost objs := by
  unfold Act.stage2
  refine bound_seq (env := env) (S := fun q => q.iterations) (E := fun q => q.iterations * evalCost objs)
    Bound.obs Steps.obs (fun m => ?_) m
  split
  · obtain ⟨t, a, b, c, d⟩ := bound_stage2Main env true m.opt.curIter ref objs m
    exact ⟨t, a, b, by omega, d.trans (Nat.mul_le_mul_right _ (by omega))⟩
  · split
    · exact ⟨[], by simp, by simp [firstSearches], by simp [searched], by simp [evaluated]⟩
    · rename_i sd _
      have := bound_seq (env := env) (S := fun q => q.iterations - 0)
        (E := fun q => (q.iterations - 0) * evalCost objs) (f := 0) (s := 0) (e := 0) (f' := 0)
        (a := Act.setSeed sd) (b := Act.stage2Main env false 0 (env.rt.shuffle sd ref) objs)
        (Bound.same fun _ => rfl) (Steps.setSeed env sd)
        (fun m => bound_stage2Main env false 0 _ objs m) m
      obtain ⟨t, a, b, c, d⟩ := this
      refine ⟨t, a, by omega, by omega, ?_⟩
      simpa using d

theorem bound_body_fresh (env : Env n) (m : M n) :
    ∃ t, (Act.body env false m).1.trace = m.trace ++ t ∧ (firstSearches t).length ≤ 1 ∧
      (searched t).length ≤ m.opt.params.iterations ∧ (evaluated t).length = 0 := by
  unfold Act.body
  rw [if_neg (by simp)]
  unfold Act.stage1
  split
  · exact ⟨[], by simp, by simp [firstSearches], by simp [searched], by simp [evaluated]⟩
  · rename_i r hr
    have hb : Bound (if m.opt.tracks1 = true then Act.obsScatter env r else Act.skip) 0 0 0 := by
      split
      · exact Bound.obsScatter env r
      · exact Bound.skip
    have hs : Steps env (if m.opt.tracks1 = true then Act.obsScatter env r else Act.skip) := by
      split
      · exact Steps.obsScatter env r
      · exact Steps.skip env
    have := bound_seq (env := env) (f := 0) (s := 0) (e := 0) (f' := 1)
      (S := fun q => q.iterations) (E := fun q => 0) (a := Act.log (.scatter r.evals))
      (b := (if m.opt.tracks1 = true then Act.obsScatter env r else Act.skip) ;;
        Act.obsScatterDone env (r.ref.map Prod.fst) (r.ref.map Prod.snd) ;;
        Act.stage1Local env r.best (r.ref.map Prod.fst) ;;
        (fun m => ({ m with uc := 0 }, .cont)) ;;
        Act.stage2 env false (r.ref.map Prod.fst) (some (r.ref.map Prod.snd)))
      (Bound.log rfl) (Steps.log rfl rfl) (fun m => ?_) m
    · obtain ⟨t, a, b, c, d⟩ := this
      exact ⟨t, a, by omega, by omega, by omega⟩
    · obtain ⟨t, a, b, c, d⟩ := bound_seq (S := fun q => q.iterations) (E := fun _ => 0) (f' := 1) hb hs
        (fun m => by
          obtain ⟨t, a, b, c, d⟩ := bound_seq (env := env) (f := 0) (s := 0) (e := 0)
            (S := fun q => q.iterations) (E := fun _ => 0) (f' := 1)
            (a := Act.obsScatterDone env (r.ref.map Prod.fst) (r.ref.map Prod.snd))
            (Bound.obs.seq ((Bound.invoke env _).seq Bound.obs)) (Steps.obsScatterDone env _ _)
            (fun m => by
              obtain ⟨t, a, b, c, d⟩ := bound_seq (env := env) (S := fun q => q.iterations)
                (E := fun _ => 0) (f' := 0) (Bound.stage1Local env r.best (r.ref.map Prod.fst))
                (Steps.stage1Local env _ _)
                (fun m => by
                  obtain ⟨t, a, b, c, d⟩ := bound_seq (env := env) (f := 0) (s := 0) (e := 0)
                    (S := fun q => q.iterations) (E := fun _ => 0) (f' := 0)
                    (a := fun m => ({ m with uc := 0 }, .cont)) (Bound.same fun _ => rfl)
                    (fun m => Relation.ReflTransGen.single (Prim.uc m 0))
                    (fun m => by
                      obtain ⟨t, a, b, c, d⟩ := bound_stage2 env false (r.ref.map Prod.fst)
                        (some (r.ref.map Prod.snd)) m
                      exact ⟨t, a, by omega, by omega, by simpa [evalCost] using d⟩) m
                  exact ⟨t, a, by omega, by omega, by omega⟩) m
              exact ⟨t, a, by omega, by omega, by omega⟩) m
          exact ⟨t, a, by omega, by omega, by omega⟩) m
      exact ⟨t, a, by omega, by omega, by omega⟩

theorem bound_body_resumed (env : Env n) (m : M n) :
    ∃ t, (Act.body env true m).1.trace = m.trace ++ t ∧ (firstSearches t).length = 0 ∧
      (searched t).length ≤ m.opt.params.iterations ∧
      (evaluated t).length ≤ m.opt.params.iterations := by
  unfold Act.body
  rw [if_pos rfl]
  obtain ⟨t, a, b, c, d⟩ := bound_stage2 env true (m.opt.curRef.getD []) none
    { m with uc := m.opt.unchanged }
  exact ⟨t, a, by omega, by simpa using c, by simpa [evalCost] using d⟩

end GS
