/- Which failure a failing run reports. -/
import Verif.Lemmas.Count
import Verif.Lemmas.Par

namespace GS
variable {n : Nat}

/-- A failed local search or a failed evaluation. -/
def Bad (f : Pt n → Except EvalErr F64) : Event n → Prop
  | .search _ _ (.error _) => True
  | .evaluate _ p => ∃ x, f p = .error x
  | _ => False

def Clean (f : Pt n → Except EvalErr F64) (tr : List (Event n)) : Prop := ∀ e ∈ tr, ¬ Bad f e

/-- The error is explained by a failure in the trace, or the trace has no failure and the error is a
panic or a checkpoint error. -/
def Blame (f : Pt n → Except EvalErr F64) (e : Err) (tr : List (Event n)) : Prop :=
  (∃ it p x, Event.search it p (.error x) ∈ tr ∧ e = .localSolver x) ∨
  (∃ it p x, Event.evaluate it p ∈ tr ∧ f p = .error x ∧ e = .objectiveFailed) ∨
  (Clean f tr ∧ (e = .panic ∨ ∃ c, e = .checkpoint c))

/-- Outcome of an action started without failures. -/
def BlamePost (f : Pt n → Except EvalErr F64) (r : M n × Out) : Prop :=
  r.1.opt.problem.objective = f ∧ (∀ e, r.2 = .fail e → Blame f e r.1.trace) ∧
    ((∀ e, r.2 ≠ .fail e) → Clean f r.1.trace)

def Errs (f : Pt n → Except EvalErr F64) (a : Act n) : Prop :=
  ∀ m, m.opt.problem.objective = f → Clean f m.trace → BlamePost f (a m)

theorem Clean.append {f : Pt n → Except EvalErr F64} {a b : List (Event n)} (ha : Clean f a)
    (hb : Clean f b) : Clean f (a ++ b) := by
  intro e he
  rcases List.mem_append.1 he with h | h
  · exact ha e h
  · exact hb e h

theorem Clean.silent {f : Pt n → Except EvalErr F64} {t : List (Event n)}
    (h : ∀ e ∈ t, e.silent = true) : Clean f t := by
  intro e he hb
  have := h e he
  cases e <;> first | exact hb | simp [Event.silent] at this

variable {f : Pt n → Except EvalErr F64}

theorem Errs.seq {a b : Act n} (ha : Errs f a) (hb : Errs f b) : Errs f (a ;; b) := by
  intro m h1 h2
  obtain ⟨k1, k2, k3⟩ := ha m h1 h2
  rw [Act.seq_def]
  split
  · rename_i hc
    exact hb _ k1 (k3 (by rw [hc]; simp))
  · exact ⟨k1, k2, k3⟩

theorem Errs.all {α : Type} (l : List α) (g : α → Act n) (h : ∀ a ∈ l, Errs f (g a)) :
    Errs f (Act.all (l.map g)) := by
  induction l with
  | nil => intro m h1 h2; exact ⟨h1, (fun e hc => by cases hc), fun _ => h2⟩
  | cons a l ih => exact (h a (by simp)).seq (ih fun x hx => h x (by simp [hx]))

/-- The action logs no search or evaluation, keeps the problem and fails only by panic or checkpoint
error. -/
def Mild (a : Act n) : Prop := ∀ m, (∃ t, (a m).1.trace = m.trace ++ t ∧ ∀ e ∈ t, e.silent = true) ∧
  (a m).1.opt.problem = m.opt.problem ∧ ∀ e, (a m).2 = .fail e → e = .panic ∨ ∃ c, e = .checkpoint c

theorem Mild.errs {a : Act n} (h : Mild a) : Errs f a := by
  intro m h1 h2
  obtain ⟨⟨t, ht, hs⟩, hp, hf⟩ := h m
  have hc : Clean f (a m).1.trace := by rw [ht]; exact h2.append (Clean.silent hs)
  exact ⟨by rw [hp]; exact h1, fun e he => Or.inr (Or.inr ⟨hc, hf e he⟩), fun _ => hc⟩

theorem Mild.seq {a b : Act n} (ha : Mild a) (hb : Mild b) : Mild (a ;; b) := by
  intro m
  rw [Act.seq_def]
  split
  · obtain ⟨⟨t, ht, hs⟩, hp, _⟩ := ha m
    obtain ⟨⟨t', ht', hs'⟩, hp', hf'⟩ := hb (a m).1
    refine ⟨⟨t ++ t', by rw [ht', ht, List.append_assoc], ?_⟩, hp'.trans hp, hf'⟩
    intro e he
    rcases List.mem_append.1 he with h | h
    · exact hs e h
    · exact hs' e h
  · exact ha m

theorem Mild.same {a : Act n} (h1 : ∀ m, (a m).1.trace = m.trace)
    (h2 : ∀ m, (a m).1.opt.problem = m.opt.problem)
    (h3 : ∀ m e, (a m).2 = .fail e → e = .panic ∨ ∃ c, e = .checkpoint c) : Mild a :=
  fun m => ⟨⟨[], by rw [h1, List.append_nil], by simp⟩, h2 m, h3 m⟩

theorem Mild.skip : Mild (Act.skip (n := n)) :=
  Mild.same (fun _ => rfl) (fun _ => rfl) (fun _ _ h => by cases h)
theorem Mild.obs {g : Opt n → Obs n → Obs n} : Mild (Act.modify fun o => o.mapObs (g o)) :=
  Mild.same (fun _ => rfl) (fun _ => rfl) (fun _ _ h => by cases h)
theorem Mild.setThreshold (v : F64) : Mild (Act.setThreshold (n := n) v) :=
  Mild.same (fun _ => rfl) (fun _ => rfl) (fun _ _ h => by cases h)
theorem Mild.storeRef (r : List (Pt n)) : Mild (Act.storeRef (n := n) r) :=
  Mild.same (fun _ => rfl) (fun _ => rfl) (fun _ _ h => by cases h)
theorem Mild.setSeed (r : Nat) : Mild (Act.setSeed (n := n) r) :=
  Mild.same (fun _ => rfl) (fun _ => rfl) (fun _ _ h => by cases h)
theorem Mild.obsIter (i : Nat) : Mild (Act.obsIter (n := n) i) :=
  Mild.same (fun _ => rfl) (fun _ => rfl) (fun _ _ h => by cases h)
theorem Mild.stopIfTarget : Mild (Act.stopIfTarget (n := n)) := by
  refine Mild.same (fun _ => rfl) (fun _ => rfl) (fun m e h => ?_)
  unfold Act.stopIfTarget at h
  dsimp only at h
  split at h <;> cases h
theorem Mild.beginIter (env : Env n) (i : Nat) : Mild (Act.beginIter env i) := by
  refine Mild.same (fun m => ?_) (fun m => ?_) (fun m e h => ?_)
  · unfold Act.beginIter; dsimp only; split <;> rfl
  · unfold Act.beginIter; dsimp only; split <;> rfl
  · unfold Act.beginIter at h; dsimp only at h; split at h <;> cases h; exact Or.inl rfl
theorem Mild.log {e : Event n} (h : e.silent = true) : Mild (Act.log e) :=
  fun _ => ⟨⟨[e], rfl, by simpa using h⟩, rfl, (fun _ h => by cases h)⟩
theorem Mild.reject (i : Nat) : Mild (Act.reject (n := n) i) := by
  intro m
  unfold Act.reject
  split
  · exact ⟨⟨[_], rfl, by simp [Event.silent]⟩, rfl, (fun _ h => by cases h)⟩
  · exact ⟨⟨[], by simp, by simp⟩, rfl, (fun _ h => by cases h)⟩
theorem Mild.invoke (env : Env n) (k : Nat) : Mild (Act.invoke env k) := by
  intro m
  unfold Act.invoke
  split
  · exact ⟨⟨[], by simp, by simp⟩, rfl, (fun _ h => by cases h)⟩
  · dsimp only
    refine ⟨?_, rfl, (fun _ h => by cases h)⟩
    split
    · exact ⟨[_], rfl, by simp [Event.silent]⟩
    · exact ⟨[], by simp, by simp⟩
theorem Mild.callback (env : Env n) (k : Nat) : Mild (Act.callback env k) := by
  intro m
  unfold Act.callback
  split
  · exact Mild.skip m
  · split
    · exact ⟨⟨[], by simp, by simp⟩, rfl, fun _ h => by cases h; exact Or.inl rfl⟩
    · exact Mild.invoke env _ m
    · exact Mild.skip m
theorem Mild.writeCkpt (env : Env n) : Mild (Act.writeCkpt env) := by
  intro m
  unfold Act.writeCkpt
  dsimp only
  split
  · exact ⟨⟨[_], rfl, by simp [Event.silent]⟩, rfl, fun _ h => by cases h; exact Or.inr ⟨_, rfl⟩⟩
  · exact ⟨⟨[_], rfl, by simp [Event.silent]⟩, rfl, (fun _ h => by cases h)⟩
theorem Mild.save (env : Env n) : Mild (Act.save env) := by
  intro m
  unfold Act.save
  split
  · exact Mild.skip m
  · split
    · exact ⟨⟨[], by simp, by simp⟩, rfl, fun _ h => by cases h; exact Or.inl rfl⟩
    · split
      · exact Mild.writeCkpt env m
      · exact Mild.skip m
theorem Mild.saveFinal (env : Env n) : Mild (Act.saveFinal env) := by
  intro m
  unfold Act.saveFinal
  split
  · exact Mild.skip m
  · exact Mild.writeCkpt env m

theorem Opt.process_problem (o : Opt n) (s : Sol n) : (o.process s).1.problem = o.problem := by
  unfold Opt.process
  dsimp only
  split
  · rfl
  · dsimp only [Opt.mapObs]
    (repeat' split) <;> rfl

theorem Mild.process {s : Sol n} {k : Verdict → Act n} (hk : ∀ v, Mild (k v)) :
    Mild (Act.process s k) := by
  intro m
  unfold Act.process
  dsimp only
  split
  · exact ⟨⟨[_], rfl, by simp [Event.silent]⟩, Opt.process_problem _ _,
      fun _ h => by cases h; exact Or.inl rfl⟩
  · obtain ⟨⟨t, ht, hs⟩, hp, hf⟩ := hk (m.opt.process s).2
      { m with opt := (m.opt.process s).1, trace := m.trace ++ [.processed s (m.opt.process s).2] }
    refine ⟨⟨.processed s (m.opt.process s).2 :: t, by rw [ht]; simp, ?_⟩,
      hp.trans (Opt.process_problem _ _), hf⟩
    intro e he
    rw [List.mem_cons] at he
    rcases he with rfl | he
    · rfl
    · exact hs e he

theorem clean_found {it : Option Nat} {p : Pt n} {s : Sol n} :
    Clean f [Event.search it p (.ok s)] := by
  intro e he
  rw [List.mem_singleton] at he
  subst he
  exact id

theorem Errs.search {env : Env n} {ty : SolverType} {cfg : SolverConfig} {it : Option Nat} {p : Pt n}
    {k : Sol n → Nat → Act n} (hk : ∀ s v, Mild (k s v)) :
    Errs f (Act.search env ty cfg it p k) := by
  intro m h1 h2
  unfold Act.search
  split
  · rename_i e he
    refine ⟨h1, fun e' he' => ?_, fun h => absurd rfl (h _)⟩
    cases he'
    exact Or.inl ⟨it, p, e, by simp, rfl⟩
  · exact (hk _ _).errs _ h1 (h2.append clean_found)

theorem Errs.localSeq (env : Env n) (i : Nat) (p : Pt n) (v : F64) :
    Errs f (Act.localSeq env i p v) := by
  intro m
  unfold Act.localSeq
  exact ((Mild.setThreshold v).errs.seq (Errs.search fun s w => Mild.process fun v =>
    Mild.obs.seq Mild.stopIfTarget)) m

theorem meritValue_error {o : Opt n} {objs : Option (List F64)} {it : Nat} {p : Pt n} {e : Err}
    (h : Act.meritValue o objs it p = .error e) :
    (objs.isNone = false ∧ e = .panic) ∨
      (objs.isNone = true ∧ e = .objectiveFailed ∧ ∃ x, o.problem.objective p = .error x) := by
  unfold Act.meritValue at h
  cases objs with
  | some l =>
    dsimp only at h
    split at h
    · cases h
    · cases h; exact Or.inl ⟨rfl, rfl⟩
  | none =>
    dsimp only at h
    split at h
    · cases h
    · rename_i x hx
      cases h; exact Or.inr ⟨rfl, rfl, x, hx⟩

theorem meritValue_ok {o : Opt n} {it : Nat} {p : Pt n} {v : F64}
    (h : Act.meritValue o none it p = .ok v) : o.problem.objective p = .ok v := by
  unfold Act.meritValue at h
  dsimp only at h
  split at h
  · cases h; assumption
  · cases h

theorem Errs.getMerit {objs : Option (List F64)} {iter : Nat} {p : Pt n} {k : F64 → Act n}
    (hk : ∀ v, Errs f (k v)) : Errs f (Act.getMerit objs iter p k) := by
  intro m h1 h2
  unfold Act.getMerit
  dsimp only
  cases ho : objs.isNone
  · simp only [Bool.false_eq_true, if_false]
    split
    · rename_i e he
      rcases meritValue_error he with ⟨_, rfl⟩ | ⟨h, _⟩
      · exact ⟨h1, fun e he => by cases he; exact Or.inr (Or.inr ⟨h2, Or.inl rfl⟩), fun h => absurd rfl (h _)⟩
      · rw [ho] at h; cases h
    · exact (Mild.skip.errs.seq (hk _)) m h1 h2
  · simp only [if_true]
    split
    · rename_i e he
      rcases meritValue_error he with ⟨h, _⟩ | ⟨_, rfl, x, hx⟩
      · rw [ho] at h; cases h
      · refine ⟨h1, fun e he => ?_, fun h => absurd rfl (h _)⟩
        cases he
        exact Or.inr (Or.inl ⟨iter, p, x, by simp, by rw [← h1]; exact hx, rfl⟩)
    · rename_i v hv
      have hq : Mild (Act.obsEvals (n := n) 1) := Mild.obs
      refine (hq.errs.seq (hk v)) { m with trace := m.trace ++ [.evaluate iter p] } h1 ?_
      refine h2.append ?_
      intro e he hb
      rw [List.mem_singleton] at he
      subst he
      obtain ⟨x, hx⟩ := hb
      cases objs with
      | some l => cases ho
      | none =>
        have := meritValue_ok hv
        rw [h1, hx] at this; cases this

theorem Errs.stepSeq (env : Env n) (r : Bool) (st : Nat) (objs : Option (List F64))
    (it : Nat × Pt n) : Errs f (Act.stepSeq env r st objs it) := by
  unfold Act.stepSeq
  split
  · exact Mild.skip.errs
  · refine (Mild.beginIter env _).errs.seq ((Mild.obsIter _).errs.seq (Errs.getMerit fun v => ?_))
    intro m
    refine ((Mild.log (e := .examine it.1 it.2 v (m.opt.shouldStart it.2 v)) rfl).errs.seq (Errs.seq
      ?_ ((Mild.callback env _).seq (Mild.save env)).errs)) m
    split
    · exact Errs.localSeq env _ _ _
    · exact (Mild.reject _).errs

theorem Errs.batchSeq (env : Env n) (r : Bool) (st : Nat) (objs : Option (List F64))
    (its : List (Nat × Pt n)) : Errs f (Act.batchSeq env r st objs its) :=
  Errs.all its _ fun it _ => Errs.stepSeq env r st objs it

theorem Mild.quickPar (env : Env n) (i : Nat) : Mild (Act.quickPar env i) :=
  (Mild.beginIter env _).seq ((Mild.reject _).seq ((Mild.obsIter _).seq
    ((Mild.callback env _).seq (Mild.save env))))

theorem Mild.resultPar (env : Env n) (i : Nat) (v : F64) (s : Sol n) (e : Nat) :
    Mild (Act.resultPar env i v s e) :=
  (Mild.beginIter env _).seq ((Mild.setThreshold _).seq (Mild.process fun _ =>
    Mild.obs.seq ((Mild.obsIter _).seq ((Mild.callback env _).seq
      (Mild.stopIfTarget.seq (Mild.save env))))))

theorem Errs.singlePar (env : Env n) (i : Nat) (p : Pt n) (v : F64) :
    Errs f (Act.singlePar env i p v) := by
  intro m
  unfold Act.singlePar
  exact ((Mild.beginIter env _).errs.seq ((Mild.setThreshold _).errs.seq (Errs.search
    fun s e => Mild.process fun v => Mild.obs.seq ((Mild.obsIter _).seq ((Mild.invoke env _).seq
      (Mild.stopIfTarget.seq (Mild.save env))))))) m

/-- All tasks of every batch of at most `N` items complete. -/
def Completes (env : Env n) (N : Nat) : Prop :=
  ∀ k, Covers (env.evalOrder k) N ∧ Covers (env.solveOrder k) N

theorem Covers.mono {l : List Nat} {a b : Nat} (h : Covers l b) (hab : a ≤ b) : Covers l a :=
  fun i hi => h i (by omega)

theorem Errs.groupPar {env : Env n} {N : Nat} (hN : Completes env N) (k : Nat)
    (c : List (Nat × Pt n × F64)) (hc : c.length ≤ N) : Errs f (Act.groupPar env k c) := by
  intro m h1 h2
  unfold Act.groupPar
  split
  · rename_i e he
    obtain ⟨a, ha, hae⟩ := parCollect_error ((hN k).2.mono hc) he
    refine ⟨h1, fun e' he' => ?_, fun h => absurd rfl (h _)⟩
    cases he'
    unfold Act.solveTask at hae
    split at hae
    · rename_i x hx
      cases hae
      refine Or.inl ⟨some a.1, a.2.1, x, ?_, rfl⟩
      rw [List.mem_append]
      right
      rw [List.mem_map]
      refine ⟨a, ha, ?_⟩
      unfold Act.solveEvent
      rw [hx]; rfl
    · cases hae
  · rename_i rs hrs
    refine (Errs.all rs (fun r => Act.resultPar env r.1 r.2.1 r.2.2.1 r.2.2.2)
      (fun r _ => (Mild.resultPar env _ _ _ _).errs)) _ h1 ?_
    refine h2.append ?_
    intro e he hb
    rw [List.mem_map] at he
    obtain ⟨a, ha, rfl⟩ := he
    have hm : Act.solveTask env m.opt a ∈ rs.map Except.ok := by
      rw [← parCollect_ok hrs]; exact List.mem_map.2 ⟨a, ha, rfl⟩
    obtain ⟨b, _, hb'⟩ := List.mem_map.1 hm
    rw [(solveTask_ok hb'.symm).1] at hb
    exact hb

theorem Errs.localsPar {env : Env n} {N : Nat} (hN : Completes env N) (k : Nat)
    (c : List (Nat × Pt n × F64)) (hc : c.length ≤ N) : Errs f (Act.localsPar env k c) := by
  intro m
  unfold Act.localsPar
  split
  · exact Errs.groupPar hN k c hc m
  · exact Errs.all c (fun c => Act.singlePar env c.1 c.2.1 c.2.2)
      (fun x _ => Errs.singlePar env _ _ _) m

theorem Errs.afterEval {env : Env n} {N : Nat} (hN : Completes env N) (objs : Option (List F64))
    (k : Nat) (vals : List (Nat × Pt n × F64)) (hv : vals.length ≤ N) :
    Errs f (Act.afterEval env objs k vals) := by
  intro m h1 h2
  unfold Act.afterEval
  have hq : Mild (if objs.isNone = true then Act.obsEvals (n := n) vals.length else Act.skip) := by
    split
    · exact Mild.obs
    · exact Mild.skip
  have hl := List.length_filter_le (Act.passes m.opt) vals
  refine (hq.errs.seq ((Errs.all (vals.filter fun c => !Act.passes m.opt c)
    (fun c => Act.quickPar env c.1) fun x _ => (Mild.quickPar env x.1).errs).seq
      (Errs.localsPar hN k (vals.filter (Act.passes m.opt)) (by omega)))) _ h1 ?_
  refine h2.append (Clean.silent ?_)
  intro e he
  rw [List.mem_map] at he
  obtain ⟨_, _, rfl⟩ := he
  rfl

theorem Errs.batchParItems {env : Env n} {N : Nat} (hN : Completes env N)
    (objs : Option (List F64)) (its : List (Nat × Pt n)) (hl : its.length ≤ N) :
    Errs f (Act.batchParItems env objs its) := by
  cases its with
  | nil => exact Mild.skip.errs
  | cons it0 its =>
    intro m h1 h2
    unfold Act.batchParItems
    have hp : (Act.logEvals objs (it0 :: its) m).opt = m.opt := by
      unfold Act.logEvals; split <;> rfl
    dsimp only
    split
    · rename_i e he
      obtain ⟨a, ha, hae⟩ := parCollect_error ((hN it0.1).1.mono hl) he
      refine ⟨by rw [hp]; exact h1, fun e' he' => ?_, fun h => absurd rfl (h _)⟩
      cases he'
      unfold Act.evalTask at hae
      cases hmv : Act.meritValue m.opt objs a.1 a.2 with
      | ok v => rw [hmv] at hae; cases hae
      | error y =>
        rw [hmv] at hae
        have hye : y = e := by cases hae; rfl
        subst hye
        rcases meritValue_error hmv with ⟨ho, rfl⟩ | ⟨ho, rfl, x, hx⟩
        · refine Or.inr (Or.inr ⟨?_, Or.inl rfl⟩)
          unfold Act.logEvals
          rw [ho]; exact h2
        · refine Or.inr (Or.inl ⟨a.1, a.2, x, ?_, by rw [← h1]; exact hx, rfl⟩)
          unfold Act.logEvals
          rw [if_pos ho]
          show _ ∈ _ ++ _
          rw [List.mem_append]
          right
          rw [List.mem_map]
          exact ⟨a, ha, rfl⟩
    · rename_i vals hv
      have hlen : vals.length = (it0 :: its).length := by
        have := congrArg List.length (parCollect_ok hv)
        simpa using this.symm
      refine Errs.afterEval hN objs it0.1 vals (by omega) _ (by rw [hp]; exact h1) ?_
      unfold Act.logEvals
      split
      · rename_i ho
        refine h2.append ?_
        intro e he hb
        rw [List.mem_map] at he
        obtain ⟨a, ha, rfl⟩ := he
        obtain ⟨x, hx⟩ := hb
        have hm : Act.evalTask m.opt objs a ∈ vals.map Except.ok := by
          rw [← parCollect_ok hv]; exact List.mem_map.2 ⟨a, ha, rfl⟩
        obtain ⟨b, _, hb'⟩ := List.mem_map.1 hm
        unfold Act.evalTask at hb'
        cases objs with
        | some l => cases ho
        | none =>
          cases hmv : Act.meritValue m.opt none a.1 a.2 with
          | error y => rw [hmv] at hb'; cases hb'
          | ok v =>
            have := meritValue_ok hmv
            rw [h1, hx] at this; cases this
      · exact h2

theorem chunksF_mem_length {α : Type} (k f : Nat) (l : List α) :
    ∀ b ∈ chunksF k f l, b.length ≤ l.length := by
  induction f generalizing l with
  | zero => intro b hb; simp [chunksF] at hb
  | succ f ih =>
    intro b hb
    cases l with
    | nil => simp [chunksF] at hb
    | cons a l =>
      simp only [chunksF, List.mem_cons] at hb
      rcases hb with rfl | hb
      · rw [List.length_take]; omega
      · have := ih _ b hb
        rw [List.length_drop] at this
        omega

theorem Errs.loop {env : Env n} {N : Nat} (hN : Completes env N) (r : Bool) (st : Nat)
    (objs : Option (List F64)) (eff k : Nat) (bs : List (List (Nat × Pt n)))
    (hl : ∀ b ∈ bs, b.length ≤ N) : Errs f (Act.loop env r st objs eff k bs) := by
  induction bs generalizing k with
  | nil => exact Mild.skip.errs
  | cons b bs ih =>
    intro m h1 h2
    unfold Act.loop
    split
    · exact ⟨h1, (fun e hc => by cases hc), fun _ => h2⟩
    · have hb : Errs f (Act.procBatch env r st objs eff b) := by
        unfold Act.procBatch
        split
        · unfold Act.batchPar
          apply Errs.batchParItems hN
          have := hl b (by simp)
          split
          · exact (List.length_filter_le _ _).trans this
          · exact this
        · exact Errs.batchSeq env r st objs b
      have h3 := hb m h1 h2
      generalize Act.procBatch env r st objs eff b m = res at h3
      obtain ⟨m', out⟩ := res
      cases out
      case fail => exact h3
      all_goals
        obtain ⟨k1, _, k3⟩ := h3
        have k4 := k3 (fun e hc => by cases hc)
        dsimp only
        split
        · exact ⟨k1, (fun e hc => by cases hc), fun _ => k4⟩
        · exact ih (k + 1) (fun b hb => hl b (by simp [hb])) m' k1 k4

theorem Errs.stage2Main {env : Env n} {N : Nat} (hN : Completes env N) (r : Bool) (st : Nat)
    (ref : List (Pt n)) (objs : Option (List F64)) (m : M n) (hit : m.opt.params.iterations ≤ N)
    (h1 : m.opt.problem.objective = f) (h2 : Clean f m.trace) :
    BlamePost f (Act.stage2Main env r st ref objs m) := by
  unfold Act.stage2Main
  split
  · exact ⟨h1, fun e he => by cases he; exact Or.inr (Or.inr ⟨h2, Or.inl rfl⟩), fun h => absurd rfl (h _)⟩
  · refine ((Errs.loop hN r st objs _ 0 _ ?_).seq
      (Mild.seq Mild.obs (Mild.saveFinal env) : Mild (Act.obsEnd2 env ;; Act.saveFinal env)).errs) m h1 h2
    intro b hb
    have := chunksF_mem_length _ _ _ b hb
    rw [items_length] at this
    omega

/-- Sequencing with a continuation that needs the parameters. -/
theorem Errs.seqCfg {env : Env n} {a b : Act n} {N : Nat} (ha : Errs f a) (hst : Steps env a)
    (hb : ∀ m, m.opt.params.iterations ≤ N → m.opt.problem.objective = f → Clean f m.trace →
      BlamePost f (b m)) (m : M n) (hN : m.opt.params.iterations ≤ N)
    (h1 : m.opt.problem.objective = f) (h2 : Clean f m.trace) : BlamePost f ((a ;; b) m) := by
  obtain ⟨k1, k2, k3⟩ := ha m h1 h2
  rw [Act.seq_def]
  split
  · rename_i hc
    exact hb _ (by rw [(hst m).cfg.params]; exact hN) k1 (k3 (by rw [hc]; simp))
  · exact ⟨k1, k2, k3⟩

theorem Errs.stage2 {env : Env n} {N : Nat} (hN : Completes env N) (r : Bool)
    (ref : List (Pt n)) (objs : Option (List F64)) (m : M n) (hit : m.opt.params.iterations ≤ N)
    (h1 : m.opt.problem.objective = f) (h2 : Clean f m.trace) :
    BlamePost f (Act.stage2 env r ref objs m) := by
  unfold Act.stage2
  refine Errs.seqCfg (env := env) (Mild.obs : Mild (Act.obsStart2 env)).errs Steps.obs ?_ m hit h1 h2
  intro m hit h1 h2
  split
  · exact Errs.stage2Main hN true _ ref objs m hit h1 h2
  · split
    · exact ⟨h1, fun e he => by cases he; exact Or.inr (Or.inr ⟨h2, Or.inl rfl⟩),
        fun h => absurd rfl (h _)⟩
    · exact Errs.seqCfg (env := env) (Mild.setSeed _).errs (Steps.setSeed env _)
        (fun m a b c => Errs.stage2Main hN false 0 _ objs m a b c) m hit h1 h2

theorem Errs.stage1Local (env : Env n) (p : Pt n) (ref : List (Pt n)) :
    Errs f (Act.stage1Local env p ref) := by
  intro m h1 h2
  unfold Act.stage1Local
  split
  · rename_i e he
    refine ⟨h1, fun e' he' => ?_, fun h => absurd rfl (h _)⟩
    cases he'
    exact Or.inl ⟨none, p, e, by simp, rfl⟩
  · rename_i s evals _
    have hend : Mild (Act.obsEnd1 env) := Mild.obs.seq ((Mild.invoke env _).seq Mild.obs)
    have hl : Mild (Act.obsLocal1 env s (if m.opt.tracks1 = true then evals else 0)) :=
      Mild.obs.seq (Mild.invoke env _)
    refine ((Mild.setThreshold _).seq (hl.seq (Mild.process fun _ => ?_))).errs _ h1
      (h2.append clean_found)
    intro m'
    dsimp only
    split
    · exact (hend.seq (Mild.same (fun _ => rfl) (fun _ => rfl) (fun _ _ h => by cases h))) m'
    · exact ((Mild.storeRef ref).seq hend) m'

theorem Errs.fresh {env : Env n} {o : Opt n} {N : Nat} (hN : Completes env N)
    (hit : o.params.iterations ≤ N) :
    (∃ e, Act.scatter env o = .error e ∧ Act.body env false ⟨o, 0, 0, []⟩ = (⟨o, 0, 0, []⟩, .fail e)) ∨
    ((∃ r, Act.scatter env o = .ok r) ∧
      BlamePost o.problem.objective (Act.body env false ⟨o, 0, 0, []⟩)) := by
  unfold Act.body
  rw [if_neg (by simp)]
  unfold Act.stage1
  split
  · rename_i e he
    exact Or.inl ⟨e, he, rfl⟩
  · rename_i r hr
    right
    refine ⟨⟨r, hr⟩, ?_⟩
    have hb : Mild (if o.tracks1 = true then Act.obsScatter env r else Act.skip) := by
      split
      · exact Mild.obs.seq ((Mild.invoke env _).seq (Mild.obs.seq ((Mild.invoke env _).seq
          (Mild.obs.seq (Mild.invoke env _)))))
      · exact Mild.skip
    have hs : Steps env (if o.tracks1 = true then Act.obsScatter env r else Act.skip) := by
      split
      · exact Steps.obsScatter env r
      · exact Steps.skip env
    have hd : Mild (Act.obsScatterDone env (r.ref.map Prod.fst) (r.ref.map Prod.snd)) :=
      Mild.obs.seq ((Mild.invoke env _).seq Mild.obs)
    refine Errs.seqCfg (env := env) (N := N) (Mild.log rfl).errs (Steps.log rfl rfl) ?_ _ hit rfl
      (by intro e he; simp at he)
    refine Errs.seqCfg hb.errs hs ?_
    refine Errs.seqCfg hd.errs (Steps.obsScatterDone env _ _) ?_
    refine Errs.seqCfg (Errs.stage1Local env _ _) (Steps.stage1Local env _ _) ?_
    refine Errs.seqCfg (env := env) (Mild.same (fun _ => rfl) (fun _ => rfl)
      (fun _ _ h => by cases h)).errs (fun m => Relation.ReflTransGen.single (Prim.uc m 0)) ?_
    intro m a b c
    exact Errs.stage2 hN false _ _ m a b c

theorem Errs.resumed {env : Env n} {o : Opt n} {N : Nat} (hN : Completes env N)
    (hit : o.params.iterations ≤ N) :
    BlamePost o.problem.objective (Act.body env true ⟨o, 0, 0, []⟩) := by
  unfold Act.body
  rw [if_pos rfl]
  exact Errs.stage2 hN true _ _ _ hit rfl (by intro e he; simp at he)

end GS
