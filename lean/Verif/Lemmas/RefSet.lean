/- What checkpoints are made from: a property of the optimizer that every step of stage 2 keeps holds for the
contents of every checkpoint. -/
import Verif.Lemmas.Trace

namespace GS
variable {n : Nat}

/-- The events of the trace that carry a checkpoint carry one made from an optimizer with `P`. -/
def MadeFrom (P : Opt n → Prop) (tr : List (Event n)) : Prop :=
  ∀ it c, Event.saved it c ∈ tr ∨ Event.saveFailed it c ∈ tr → ∃ o st, P o ∧ o.curIter = it ∧ c = o.createCkpt st

theorem MadeFrom.append {P : Opt n → Prop} {a b : List (Event n)} (ha : MadeFrom P a) (hb : MadeFrom P b) :
    MadeFrom P (a ++ b) := by
  intro it c h
  rcases h with h | h <;> rcases List.mem_append.1 h with h | h
  · exact ha it c (Or.inl h)
  · exact hb it c (Or.inl h)
  · exact ha it c (Or.inr h)
  · exact hb it c (Or.inr h)

theorem MadeFrom.plain {P : Opt n → Prop} {l : List (Event n)}
    (h : ∀ e ∈ l, (∀ it c, e ≠ .saved it c) ∧ ∀ it c, e ≠ .saveFailed it c) : MadeFrom P l := by
  intro it c hm
  rcases hm with hm | hm
  · exact absurd rfl ((h _ hm).1 it c)
  · exact absurd rfl ((h _ hm).2 it c)

/-- Every step of stage 2 keeps `P`. -/
structure Lasting (env : Env n) (P : Opt n → Prop) : Prop where
  obs : ∀ o b, P o → P { o with obs := b }
  merit : ∀ o v, P o → P { o with merit := o.merit.update v }
  process : ∀ o s, P o → P (o.process s).1
  begin : ∀ o it uc sd, Opt.iterSeed env o.params.seed it = some sd → P o →
    P { o with curIter := it, unchanged := uc, curSeed := sd }

/-- The action keeps `P`, unless it fails, and makes checkpoints only from optimizers with `P`. -/
def KeepsP (P : Opt n → Prop) (a : Act n) : Prop :=
  ∀ m, P m.opt → MadeFrom P m.trace →
    MadeFrom P (a m).1.trace ∧ ((∀ e, (a m).2 ≠ .fail e) → P (a m).1.opt)

section
variable {env : Env n} {P : Opt n → Prop} {a b : Act n}

theorem KeepsP.seq (ha : KeepsP P a) (hb : KeepsP P b) : KeepsP P (a ;; b) := by
  intro m h1 h2
  obtain ⟨k1, k2⟩ := ha m h1 h2
  unfold Act.seq
  split
  · rename_i m' he
    rw [he] at k1 k2
    exact hb m' (k2 fun e => by simp) k1
  · exact ⟨k1, k2⟩

theorem KeepsP.skip : KeepsP P Act.skip := fun _ h1 h2 => ⟨h2, fun _ => h1⟩

theorem KeepsP.all {l : List (Act n)} (h : ∀ a ∈ l, KeepsP P a) : KeepsP P (Act.all l) := by
  induction l with
  | nil => exact KeepsP.skip
  | cons a l ih => exact (h a (by simp)).seq (ih fun x hx => h x (by simp [hx]))

theorem KeepsP.obs (hP : Lasting env P) {f : Opt n → Obs n → Obs n} :
    KeepsP P (Act.modify fun o => o.mapObs (f o)) :=
  fun m h1 h2 => ⟨h2, fun _ => hP.obs _ _ h1⟩

theorem KeepsP.log {e : Event n} (h1 : ∀ it c, e ≠ .saved it c) (h2 : ∀ it c, e ≠ .saveFailed it c) :
    KeepsP P (Act.log e) := fun m k1 k2 =>
  ⟨k2.append (MadeFrom.plain (by simpa using ⟨h1, h2⟩)), fun _ => k1⟩

theorem KeepsP.beginIter (hP : Lasting env P) (i : Nat) : KeepsP P (Act.beginIter env i) := by
  intro m h1 h2
  unfold Act.beginIter
  dsimp only
  cases hs : Opt.iterSeed env m.opt.params.seed i with
  | none => exact ⟨h2, fun h => absurd rfl (h _)⟩
  | some sd => exact ⟨h2, fun _ => hP.begin _ _ _ _ hs h1⟩

theorem KeepsP.obsIter (hP : Lasting env P) (i : Nat) : KeepsP P (Act.obsIter (n := n) i) :=
  fun m h1 h2 => ⟨h2, fun _ => hP.obs _ _ h1⟩

theorem KeepsP.setThreshold (hP : Lasting env P) (v : F64) : KeepsP P (Act.setThreshold (n := n) v) :=
  fun m h1 h2 => ⟨h2, fun _ => hP.merit _ _ h1⟩

theorem KeepsP.process (hP : Lasting env P) {s : Sol n} {k : Verdict → Act n} (hk : ∀ v, KeepsP P (k v)) :
    KeepsP P (Act.process s k) := by
  intro m h1 h2
  unfold Act.process
  dsimp only
  have h3 : MadeFrom P (m.trace ++ [Event.processed s (m.opt.process s).2]) :=
    h2.append (MadeFrom.plain (by simp))
  split
  · exact ⟨h3, fun h => absurd rfl (h _)⟩
  · exact hk _ _ (hP.process _ _ h1) h3

theorem KeepsP.stopIfTarget : KeepsP P (Act.stopIfTarget (n := n)) := fun _ h1 h2 => ⟨h2, fun _ => h1⟩

theorem KeepsP.reject (hP : Lasting env P) (i : Nat) : KeepsP P (Act.reject (n := n) i) := by
  intro m h1 h2
  unfold Act.reject
  split
  · exact ⟨h2.append (MadeFrom.plain (by simp)), fun _ => hP.merit _ _ h1⟩
  · exact ⟨h2, fun _ => h1⟩

theorem KeepsP.invoke (hP : Lasting env P) (k : Nat) : KeepsP P (Act.invoke env k) := by
  intro m h1 h2
  unfold Act.invoke
  split
  · exact ⟨h2, fun _ => h1⟩
  · refine ⟨?_, fun _ => hP.obs _ _ h1⟩
    dsimp only
    split
    · exact h2.append (MadeFrom.plain (by simp))
    · exact h2

theorem KeepsP.callback (hP : Lasting env P) (k : Nat) : KeepsP P (Act.callback env k) := by
  intro m h1 h2
  unfold Act.callback
  split
  · exact ⟨h2, fun _ => h1⟩
  · split
    · exact ⟨h2, fun h => absurd rfl (h _)⟩
    · exact KeepsP.invoke hP _ m h1 h2
    · exact ⟨h2, fun _ => h1⟩

theorem KeepsP.writeCkpt (env : Env n) : KeepsP P (Act.writeCkpt env) := by
  intro m h1 h2
  unfold Act.writeCkpt
  dsimp only
  split
  · refine ⟨h2.append ?_, fun h => absurd rfl (h _)⟩
    intro it c h
    rcases h with h | h
    · simp at h
    · simp only [List.mem_singleton, Event.saveFailed.injEq] at h
      exact ⟨_, _, h1, h.1.symm, h.2⟩
  · refine ⟨h2.append ?_, fun _ => h1⟩
    intro it c h
    rcases h with h | h
    · simp only [List.mem_singleton, Event.saved.injEq] at h
      exact ⟨_, _, h1, h.1.symm, h.2⟩
    · simp at h

theorem KeepsP.save (env : Env n) : KeepsP P (Act.save env) := by
  intro m h1 h2
  unfold Act.save
  split
  · exact ⟨h2, fun _ => h1⟩
  · split
    · exact ⟨h2, fun h => absurd rfl (h _)⟩
    · split
      · exact KeepsP.writeCkpt env m h1 h2
      · exact ⟨h2, fun _ => h1⟩

theorem KeepsP.saveFinal (env : Env n) : KeepsP P (Act.saveFinal env) := by
  intro m h1 h2
  unfold Act.saveFinal
  split
  · exact ⟨h2, fun _ => h1⟩
  · exact KeepsP.writeCkpt env m h1 h2

theorem KeepsP.search {ty : SolverType} {cfg : SolverConfig} {iter : Option Nat} {p : Pt n}
    {k : Sol n → Nat → Act n} (hk : ∀ s e, KeepsP P (k s e)) : KeepsP P (Act.search env ty cfg iter p k) := by
  intro m h1 h2
  unfold Act.search
  split
  · exact ⟨h2.append (MadeFrom.plain (by simp)), fun h => absurd rfl (h _)⟩
  · exact hk _ _ _ h1 (h2.append (MadeFrom.plain (by simp)))

theorem KeepsP.getMerit (hP : Lasting env P) {objs : Option (List F64)} {iter : Nat} {p : Pt n}
    {k : F64 → Act n} (hk : ∀ v, KeepsP P (k v)) : KeepsP P (Act.getMerit objs iter p k) := by
  intro m h1 h2
  unfold Act.getMerit
  dsimp only
  have h3 : MadeFrom P
      (if objs.isNone then { m with trace := m.trace ++ [.evaluate iter p] } else m).trace := by
    split
    · exact h2.append (MadeFrom.plain (by simp))
    · exact h2
  have h4 : P (if objs.isNone then { m with trace := m.trace ++ [.evaluate iter p] } else m).opt := by
    split <;> exact h1
  split
  · exact ⟨h3, fun h => absurd rfl (h _)⟩
  · refine KeepsP.seq ?_ (hk _) _ h4 h3
    split
    · exact KeepsP.obs hP
    · exact KeepsP.skip

theorem KeepsP.localSeq (hP : Lasting env P) (i : Nat) (p : Pt n) (v : F64) :
    KeepsP P (Act.localSeq env i p v) := by
  intro m h1 h2
  unfold Act.localSeq
  exact KeepsP.seq (KeepsP.setThreshold hP v) (KeepsP.search fun s e => KeepsP.process hP fun v =>
    (KeepsP.obs hP).seq KeepsP.stopIfTarget) m h1 h2

theorem KeepsP.stepSeq (hP : Lasting env P) (r : Bool) (st : Nat) (objs : Option (List F64))
    (it : Nat × Pt n) : KeepsP P (Act.stepSeq env r st objs it) := by
  unfold Act.stepSeq
  split
  · exact KeepsP.skip
  · refine (KeepsP.beginIter hP _).seq ((KeepsP.obsIter hP _).seq (KeepsP.getMerit hP fun v => ?_))
    intro m h1 h2
    refine KeepsP.seq (KeepsP.log (by simp) (by simp)) (KeepsP.seq ?_ ((KeepsP.callback hP _).seq
      (KeepsP.save env))) m h1 h2
    split
    · exact KeepsP.localSeq hP _ _ _
    · exact KeepsP.reject hP _

theorem KeepsP.quickPar (hP : Lasting env P) (i : Nat) : KeepsP P (Act.quickPar env i) :=
  (KeepsP.beginIter hP i).seq ((KeepsP.reject hP i).seq ((KeepsP.obsIter hP i).seq
    ((KeepsP.callback hP i).seq (KeepsP.save env))))

theorem KeepsP.resultPar (hP : Lasting env P) (i : Nat) (v : F64) (s : Sol n) (e : Nat) :
    KeepsP P (Act.resultPar env i v s e) :=
  (KeepsP.beginIter hP i).seq ((KeepsP.setThreshold hP v).seq (KeepsP.process hP fun _ =>
    (KeepsP.obs hP).seq ((KeepsP.obsIter hP i).seq ((KeepsP.callback hP i).seq
      (KeepsP.stopIfTarget.seq (KeepsP.save env))))))

theorem KeepsP.singlePar (hP : Lasting env P) (i : Nat) (p : Pt n) (v : F64) :
    KeepsP P (Act.singlePar env i p v) := by
  intro m h1 h2
  unfold Act.singlePar
  exact (KeepsP.beginIter hP i).seq ((KeepsP.setThreshold hP v).seq (KeepsP.search fun s e =>
    KeepsP.process hP fun _ => (KeepsP.obs hP).seq ((KeepsP.obsIter hP i).seq ((KeepsP.invoke hP _).seq
      (KeepsP.stopIfTarget.seq (KeepsP.save env)))))) m h1 h2

theorem KeepsP.localsPar (hP : Lasting env P) (first : Nat) (cands : List (Nat × Pt n × F64)) :
    KeepsP P (Act.localsPar env first cands) := by
  intro m h1 h2
  unfold Act.localsPar
  split
  · unfold Act.groupPar
    have h3 : MadeFrom P (m.trace ++ cands.map (Act.solveEvent env m.opt)) := by
      refine h2.append (MadeFrom.plain ?_)
      intro e he
      obtain ⟨c, -, rfl⟩ := List.mem_map.1 he
      exact ⟨fun _ _ h => (by cases h), fun _ _ h => (by cases h)⟩
    split
    · exact ⟨h3, fun h => absurd rfl (h _)⟩
    · refine KeepsP.all ?_ _ h1 h3
      intro a ha
      obtain ⟨r, -, rfl⟩ := List.mem_map.1 ha
      exact KeepsP.resultPar hP _ _ _ _
  · refine KeepsP.all ?_ _ h1 h2
    intro a ha
    obtain ⟨r, -, rfl⟩ := List.mem_map.1 ha
    exact KeepsP.singlePar hP _ _ _

theorem KeepsP.batchParItems (hP : Lasting env P) (objs : Option (List F64)) (its : List (Nat × Pt n)) :
    KeepsP P (Act.batchParItems env objs its) := by
  cases its with
  | nil => exact KeepsP.skip
  | cons it0 its =>
    intro m h1 h2
    rw [show Act.batchParItems env objs (it0 :: its) m =
      match Act.parCollect (Act.evalTask m.opt objs) (it0 :: its) (env.evalOrder it0.1) with
      | .error e => (Act.logEvals objs (it0 :: its) m, .fail e)
      | .ok vals => Act.afterEval env objs it0.1 vals (Act.logEvals objs (it0 :: its) m) from rfl]
    have h3 : MadeFrom P (Act.logEvals objs (it0 :: its) m).trace := by
      unfold Act.logEvals
      split
      · refine h2.append (MadeFrom.plain ?_)
        intro e he
        obtain ⟨c, -, rfl⟩ := List.mem_map.1 he
        exact ⟨fun _ _ h => (by cases h), fun _ _ h => (by cases h)⟩
      · exact h2
    have h4 : P (Act.logEvals objs (it0 :: its) m).opt := by
      unfold Act.logEvals
      split <;> exact h1
    split
    · exact ⟨h3, fun h => absurd rfl (h _)⟩
    · rename_i vals _
      unfold Act.afterEval
      refine KeepsP.seq ?_ (KeepsP.seq (KeepsP.all ?_) (KeepsP.localsPar hP _ _)) _ h4 (h3.append
        (MadeFrom.plain ?_))
      · split
        · exact KeepsP.obs hP
        · exact KeepsP.skip
      · intro a ha
        obtain ⟨r, -, rfl⟩ := List.mem_map.1 ha
        exact KeepsP.quickPar hP _
      · intro e he
        obtain ⟨c, -, rfl⟩ := List.mem_map.1 he
        exact ⟨fun _ _ h => (by cases h), fun _ _ h => (by cases h)⟩

theorem KeepsP.procBatch (hP : Lasting env P) (r : Bool) (st : Nat) (objs : Option (List F64)) (eff : Nat)
    (batch : List (Nat × Pt n)) : KeepsP P (Act.procBatch env r st objs eff batch) := by
  unfold Act.procBatch
  split
  · exact KeepsP.batchParItems hP _ _
  · refine KeepsP.all ?_
    intro a ha
    obtain ⟨it, -, rfl⟩ := List.mem_map.1 ha
    exact KeepsP.stepSeq hP _ _ _ _

theorem KeepsP.loop (hP : Lasting env P) (r : Bool) (st : Nat) (objs : Option (List F64)) (eff : Nat) :
    ∀ (l : List (List (Nat × Pt n))) (k : Nat), KeepsP P (Act.loop env r st objs eff k l)
  | [], k => by
    intro m h1 h2
    exact ⟨h2, fun _ => h1⟩
  | batch :: rest, k => by
    intro m h1 h2
    rw [show Act.loop env r st objs eff k (batch :: rest) m = if Act.timedOut env m.opt k then (m, .cont)
      else match Act.procBatch env r st objs eff batch m with
        | (m', .fail e) => (m', .fail e)
        | (m', _) => if m'.opt.targetReached then (m', .cont)
          else Act.loop env r st objs eff (k + 1) rest m' from rfl]
    split
    · exact ⟨h2, fun _ => h1⟩
    · obtain ⟨k1, k2⟩ := KeepsP.procBatch hP r st objs eff batch m h1 h2
      split
      · rename_i m' e he
        rw [he] at k1
        exact ⟨k1, fun h => absurd rfl (h _)⟩
      · rename_i m' out hne he
        rw [he] at k1 k2
        have k3 : P m'.opt := k2 fun e h => hne e h
        split
        · exact ⟨k1, fun _ => k3⟩
        · exact KeepsP.loop hP r st objs eff rest (k + 1) m' k3 k1

theorem KeepsP.stage2Main (hP : Lasting env P) (r : Bool) (st : Nat) (ref : List (Pt n))
    (objs : Option (List F64)) : KeepsP P (Act.stage2Main env r st ref objs) := by
  intro m h1 h2
  unfold Act.stage2Main
  split
  · exact ⟨h2, fun h => absurd rfl (h _)⟩
  · exact KeepsP.seq (KeepsP.loop hP r st objs _ _ 0) ((KeepsP.obs hP).seq (KeepsP.saveFinal env)) m h1 h2

/-- No event of the trace carries a checkpoint. -/
def NoneSaved (tr : List (Event n)) : Prop := MadeFrom (fun _ => False) tr

theorem NoneSaved.any {tr : List (Event n)} (h : NoneSaved tr) (P : Opt n → Prop) : MadeFrom P tr :=
  fun it c hm => by obtain ⟨_, _, h, _⟩ := h it c hm; exact h.elim

/-- The action writes no checkpoint. -/
def NoCk (a : Act n) : Prop := ∀ m, NoneSaved m.trace → NoneSaved (a m).1.trace

theorem NoCk.seq (ha : NoCk a) (hb : NoCk b) : NoCk (a ;; b) := by
  intro m h
  have k := ha m h
  unfold Act.seq
  split
  · rename_i m' he
    rw [he] at k
    exact hb m' k
  · exact k

theorem NoCk.modify (f : Opt n → Opt n) : NoCk (Act.modify f) := fun _ h => h

theorem NoCk.invoke (env : Env n) (k : Nat) : NoCk (Act.invoke env k) := by
  intro m h
  unfold Act.invoke
  split
  · exact h
  · dsimp only
    split
    · exact h.append (MadeFrom.plain (by simp))
    · exact h

theorem NoCk.obsScatter (env : Env n) (r : Scatter.Result n) : NoCk (Act.obsScatter env r) :=
  (NoCk.modify _).seq ((NoCk.invoke env _).seq ((NoCk.modify _).seq ((NoCk.invoke env _).seq
    ((NoCk.modify _).seq (NoCk.invoke env _)))))

theorem NoCk.obsScatterDone (env : Env n) (ref : List (Pt n)) (objs : List F64) :
    NoCk (Act.obsScatterDone env ref objs) :=
  (NoCk.modify _).seq ((NoCk.invoke env _).seq (NoCk.modify _))

theorem NoCk.obsEnd1 (env : Env n) : NoCk (Act.obsEnd1 env) :=
  (NoCk.modify _).seq ((NoCk.invoke env _).seq (NoCk.modify _))

theorem NoCk.stage1Local (env : Env n) (p : Pt n) (ref : List (Pt n)) :
    NoCk (Act.stage1Local env p ref) := by
  intro m h
  unfold Act.stage1Local
  split
  · exact h.append (MadeFrom.plain (by simp))
  · refine ((NoCk.modify _).seq (((NoCk.modify _).seq (NoCk.invoke env _)).seq ?_)) _
      (h.append (MadeFrom.plain (by simp)))
    intro m' h'
    unfold Act.process
    dsimp only
    have h3 := fun s v => h'.append (MadeFrom.plain (P := fun _ : Opt n => False)
      (l := [Event.processed s v]) (by simp))
    split
    · exact h3 _ _
    · split
      · refine NoCk.seq (NoCk.obsEnd1 env) (fun _ h => h) _ (h3 _ _)
      · exact NoCk.seq (NoCk.modify _) (NoCk.obsEnd1 env) _ (h3 _ _)

/-- A step that leaves the stored reference set alone. -/
def SameRef (a : Act n) : Prop := ∀ m, (a m).1.opt.curRef = m.opt.curRef

theorem SameRef.seq (ha : SameRef a) (hb : SameRef b) : SameRef (a ;; b) := by
  intro m
  have k := ha m
  unfold Act.seq
  split
  · rename_i m' he
    rw [he] at k
    exact (hb m').trans k
  · exact k

theorem SameRef.invoke (env : Env n) (k : Nat) : SameRef (Act.invoke env k) := by
  intro m
  unfold Act.invoke
  split <;> rfl

theorem SameRef.obsEnd1 (env : Env n) : SameRef (Act.obsEnd1 env) :=
  SameRef.seq (fun _ => rfl) ((SameRef.invoke env _).seq (fun _ => rfl))

theorem seq_cont {m : M n} (h : ((a ;; b) m).2 = .cont) : (a ;; b) m = b (a m).1 := by
  rw [Act.seq_def] at h ⊢
  split at h
  · rename_i h1; rw [if_pos h1]
  · rename_i h1; exact absurd h h1

theorem process_cont {s : Sol n} {k : Verdict → Act n} {m : M n} (h : (Act.process s k m).2 = .cont) :
    ∃ v m', Act.process s k m = k v m' := by
  unfold Act.process at h ⊢
  dsimp only at h ⊢
  split at h
  · cases h
  · rename_i h3
    rw [if_neg h3]
    exact ⟨_, _, rfl⟩

/-- When stage 1 goes on to stage 2 the reference set has been stored. -/
theorem stage1Local_ref (env : Env n) (p : Pt n) (ref : List (Pt n)) (m : M n)
    (hc : (Act.stage1Local env p ref m).2 = .cont) :
    (Act.stage1Local env p ref m).1.opt.curRef = some ref := by
  unfold Act.stage1Local at hc ⊢
  split at hc
  · cases hc
  · rename_i s evals he
    generalize hm0 : ({ m with trace := m.trace ++ [.search none p (.ok s)] } : M n) = m0 at hc ⊢
    have e1 := seq_cont hc
    rw [e1] at hc ⊢
    have e2 := seq_cont hc
    rw [e2] at hc ⊢
    obtain ⟨v, m', e3⟩ := process_cont hc
    rw [e3] at hc ⊢
    split at hc
    · rw [seq_cont hc] at hc
      cases hc
    · rename_i h4
      rw [if_neg h4]
      exact SameRef.obsEnd1 env _

/-- Stage 2 of a fresh run makes checkpoints from optimizers with `P`, if `P` holds when it is entered. -/
theorem stage2_made (hP : Lasting env P) (ref : List (Pt n)) (objs : Option (List F64)) (m : M n)
    (hn : NoneSaved m.trace) (h : ∀ o sd, SameCfg m.opt o → o.curRef = m.opt.curRef →
      Opt.shuffleSeed env o.params.seed o.curIter = some sd → P { o with curSeed := sd }) :
    MadeFrom P (Act.stage2 env false ref objs m).1.trace := by
  unfold Act.stage2
  rw [Act.seq_def]
  rw [if_pos (show (Act.obsStart2 env m).2 = .cont from rfl)]
  have hc : SameCfg m.opt (Act.obsStart2 env m).1.opt := by constructor <;> rfl
  have hr : (Act.obsStart2 env m).1.opt.curRef = m.opt.curRef := rfl
  have ht : NoneSaved (Act.obsStart2 env m).1.trace := hn
  generalize (Act.obsStart2 env m).1 = m1 at hc hr ht
  rw [if_neg (by simp)]
  split
  · exact ht.any P
  · rename_i sd hs
    rw [Act.seq_def, if_pos (show (Act.setSeed sd m1).2 = .cont from rfl)]
    exact (KeepsP.stage2Main hP false 0 _ objs (Act.setSeed sd m1).1 (h m1.opt sd hc hr hs) (ht.any P)).1

theorem made_seq {m : M n} (ha : NoCk a) (hn : NoneSaved m.trace)
    (h : NoneSaved (a m).1.trace → (a m).2 = .cont → MadeFrom P (b (a m).1).1.trace) :
    MadeFrom P ((a ;; b) m).1.trace := by
  rw [Act.seq_def]
  split
  · rename_i hc
    exact h (ha m hn) hc
  · exact (ha m hn).any P

/-- The checkpoints of a fresh run: the same, with the reference set of stage 1. -/
theorem body_made (hP : Lasting env P) (m : M n) (hn : NoneSaved m.trace)
    (h : ∀ o sd sc, Act.scatter env m.opt = .ok sc → SameCfg m.opt o → o.curRef = some (sc.ref.map Prod.fst) →
      Opt.shuffleSeed env o.params.seed o.curIter = some sd → P { o with curSeed := sd }) :
    MadeFrom P (Act.body env false m).1.trace := by
  unfold Act.body
  rw [if_neg (by simp)]
  unfold Act.stage1
  cases hs : Act.scatter env m.opt with
  | error e => exact hn.any P
  | ok sc =>
    dsimp only
    have hfirst : NoCk (Act.log (.scatter sc.evals : Event n)) := fun m hm =>
      hm.append (MadeFrom.plain (by simp))
    have hobs : ∀ b : Bool, NoCk (if b then Act.obsScatter env sc else Act.skip) := by
      intro b
      split
      · exact NoCk.obsScatter env sc
      · exact fun _ h => h
    have sobs : ∀ b : Bool, Steps env (if b then Act.obsScatter env sc else Act.skip) := by
      intro b
      split
      · exact Steps.obsScatter env sc
      · exact Steps.skip env
    refine made_seq hfirst hn fun n1 _ => ?_
    have s1 : Reach env m (Act.log (.scatter sc.evals) m).1 := Steps.log (e := .scatter sc.evals) rfl rfl m
    refine made_seq (hobs _) n1 fun n2 _ => ?_
    have s2 := s1.trans (sobs m.opt.tracks1 _)
    refine made_seq (NoCk.obsScatterDone env _ _) n2 fun n3 _ => ?_
    have s3 := s2.trans (Steps.obsScatterDone env (sc.ref.map Prod.fst) (sc.ref.map Prod.snd) _)
    refine made_seq (NoCk.stage1Local env _ _) n3 fun n4 hc => ?_
    have s4 : Reach env m _ := s3.trans (Steps.stage1Local env sc.best (sc.ref.map Prod.fst) _)
    have hr := stage1Local_ref env sc.best (sc.ref.map Prod.fst) _ hc
    rw [Act.seq_def, if_pos rfl]
    exact stage2_made hP _ _ _ n4 fun o sd k1 k2 k3 => h o sd sc hs ((Reach.cfg s4).trans k1) (k2.trans hr) k3

/-- The checkpoints of a resumed run. -/
theorem resumed_made (hP : Lasting env P) (m : M n) (hn : NoneSaved m.trace) (h : P m.opt) :
    MadeFrom P (Act.body env true m).1.trace := by
  unfold Act.body
  rw [if_pos rfl]
  unfold Act.stage2
  refine (KeepsP.seq (KeepsP.obs hP) (b := fun m => if true then _ else _) ?_ { m with uc := m.opt.unchanged } h
    (hn.any P)).1
  intro m h1 h2
  exact KeepsP.stage2Main hP true _ _ _ m h1 h2

end
end GS
