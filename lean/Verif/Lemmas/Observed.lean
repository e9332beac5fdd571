/- What a run does to its observer. -/
import Verif.Lemmas.Built

namespace GS
open F64
variable {n : Nat}

/-- Callbacks that leave the observer they are given alone, apart from the numbers the built-in ones
remember.  (No public method changes an observer in place; only overwriting the whole observer is
excluded.) -/
def Tame (env : Env n) : Prop := ∀ id k b, ∃ p, env.cb id k b = { b with prev := p }

/-- Events that are neither searches, evaluations nor processed solutions. -/
def Event.idle : Event n → Bool
  | .search .. | .evaluate .. | .processed .. => false
  | _ => true

/-- Idle events other than callbacks. -/
def Event.calm : Event n → Bool
  | .search .. | .evaluate .. | .processed .. | .callback .. => false
  | _ => true

theorem calm_idle {t : List (Event n)} (h : ∀ e ∈ t, e.calm = true) : ∀ e ∈ t, e.idle = true := by
  intro e he
  have := h e he
  cases e <;> first | rfl | cases this

/-- Events of starting a search or evaluating the objective. -/
def Event.work : Event n → Bool
  | .search .. | .evaluate .. => true
  | _ => false

/-- Outcomes considered: all, or with `strict` those that are no failure. -/
def Fine (strict : Bool) (o : Out) : Prop := strict = true → ∀ e, o ≠ .fail e

/-- An action relates the states before and after it by `R`. -/
def Resp (strict : Bool) (R : M n → M n → Prop) (a : Act n) : Prop :=
  ∀ m, Fine strict (a m).2 → R m (a m).1

/-- A relation between states that stage 2 respects where it does not deal with the observer. -/
structure Base (env : Env n) (strict : Bool) (R : M n → M n → Prop) : Prop where
  refl : ∀ m, R m m
  trans : ∀ {a b c}, R a b → R b c → R a c
  quiet : ∀ m m', SameCfg m.opt m'.opt → m'.opt.obs = m.opt.obs → m'.opt.solset = m.opt.solset →
    (∃ t, m'.trace = m.trace ++ t ∧ ∀ e ∈ t, e.calm = true) → R m m'
  end2 : Resp strict R (Act.obsEnd2 env)

/-- A relation between states that stage 2 respects where it deals with the observer only now and then. -/
structure Track (env : Env n) (strict : Bool) (R : M n → M n → Prop) : Prop extends
    Base env strict R where
  iter : ∀ i, Resp strict R (Act.obsIter i)
  inv : ∀ k, Resp strict R (Act.invoke env k)

namespace Base
variable {env : Env n} {strict : Bool} {R : M n → M n → Prop}

theorem seq (T : Base env strict R) {a b : Act n} (ha : Resp strict R a) (hb : Resp strict R b) :
    Resp strict R (a ;; b) := by
  intro m
  rw [Act.seq_def]
  split
  · rename_i hc
    intro hf
    exact T.trans (ha m (fun _ e he => by rw [hc] at he; cases he)) (hb _ hf)
  · intro hf
    exact ha m hf

theorem skip (T : Base env strict R) : Resp strict R Act.skip := fun m _ => T.refl m

theorem all (T : Base env strict R) {l : List (Act n)} (h : ∀ a ∈ l, Resp strict R a) :
    Resp strict R (Act.all l) := by
  induction l with
  | nil => exact T.skip
  | cons a l ih => exact T.seq (h a (by simp)) (ih fun x hx => h x (by simp [hx]))

theorem still (T : Base env strict R) (m m' : M n) (hc : SameCfg m.opt m'.opt)
    (ho : m'.opt.obs = m.opt.obs) (hs : m'.opt.solset = m.opt.solset) (ht : m'.trace = m.trace) :
    R m m' := T.quiet m m' hc ho hs ⟨[], by simp [ht], by simp⟩

theorem log (T : Base env strict R) {e : Event n} (h : e.calm = true) :
    Resp strict R (Act.log e) := fun m _ =>
  T.quiet m _ (SameCfg.refl _) rfl rfl ⟨[e], rfl, by simpa using h⟩

theorem logs (T : Base env strict R) (m : M n) (es : List (Event n)) (h : ∀ e ∈ es, e.calm = true) :
    R m { m with trace := m.trace ++ es } := T.quiet m _ (SameCfg.refl _) rfl rfl ⟨es, rfl, h⟩

theorem beginIter (T : Base env strict R) (i : Nat) : Resp strict R (Act.beginIter env i) := by
  intro m _
  unfold Act.beginIter
  dsimp only
  split <;> exact T.still m _ (by constructor <;> rfl) rfl rfl rfl

theorem setThreshold (T : Base env strict R) (v : F64) : Resp strict R (Act.setThreshold v) :=
  fun m _ => T.still m _ (by constructor <;> rfl) rfl rfl rfl

theorem setSeed (T : Base env strict R) (v : Nat) : Resp strict R (Act.setSeed v) :=
  fun m _ => T.still m _ (by constructor <;> rfl) rfl rfl rfl

theorem stopIfTarget (T : Base env strict R) : Resp strict R Act.stopIfTarget := fun m _ => T.refl m

theorem reject (T : Base env strict R) (i : Nat) : Resp strict R (Act.reject i) := by
  intro m _
  unfold Act.reject
  split
  · exact T.quiet m _ (by constructor <;> rfl) rfl rfl ⟨[_], rfl, by simp [Event.calm]⟩
  · exact T.still m _ (by constructor <;> rfl) rfl rfl rfl

theorem writeCkpt (T : Base env strict R) : Resp strict R (Act.writeCkpt env) := by
  intro m _
  unfold Act.writeCkpt
  dsimp only
  split <;> exact T.quiet m _ (SameCfg.refl _) rfl rfl ⟨[_], rfl, by simp [Event.calm]⟩

theorem save (T : Base env strict R) : Resp strict R (Act.save env) := by
  intro m
  unfold Act.save
  split
  · exact fun _ => T.refl m
  · split
    · exact fun _ => T.refl m
    · split
      · exact T.writeCkpt m
      · exact fun _ => T.refl m

theorem saveFinal (T : Base env strict R) : Resp strict R (Act.saveFinal env) := by
  intro m
  unfold Act.saveFinal
  split
  · exact fun _ => T.refl m
  · exact T.writeCkpt m

theorem loop (T : Base env strict R) {r : Bool} {st : Nat} {objs : Option (List F64)} {eff : Nat}
    (h : ∀ b, Resp strict R (Act.procBatch env r st objs eff b)) (k : Nat)
    (bs : List (List (Nat × Pt n))) : Resp strict R (Act.loop env r st objs eff k bs) := by
  induction bs generalizing k with
  | nil => exact fun m _ => T.refl m
  | cons b bs ih =>
    intro m
    unfold Act.loop
    split
    · exact fun _ => T.refl m
    · have h1 := h b m
      split
      · rename_i m' e he
        rw [he] at h1; exact h1
      · rename_i m' o ho he
        rw [he] at h1
        have h2 := h1 fun _ e hc => ho e hc
        split
        · exact fun _ => h2
        · exact fun hf => T.trans h2 (ih (k + 1) m' hf)

/-- Stage 2 after its start, if the batches respect the relation. -/
theorem stage2Main (T : Base env strict R) (r : Bool) (st : Nat) (ref : List (Pt n))
    (objs : Option (List F64)) (m : M n)
    (h : ∀ b, Resp strict R (Act.procBatch env r st objs (m.opt.effBatch env.threads st) b))
    (hf : Fine strict (Act.stage2Main env r st ref objs m).2) :
    R m (Act.stage2Main env r st ref objs m).1 := by
  unfold Act.stage2Main at hf ⊢
  split at hf
  · rename_i h0
    rw [if_pos h0]; exact T.refl m
  · rename_i h0
    rw [if_neg h0]
    exact T.seq (T.loop h _ _) (T.seq T.end2 T.saveFinal) m hf

end Base

namespace Track
variable {env : Env n} {strict : Bool} {R : M n → M n → Prop}

theorem callback (T : Track env strict R) (i : Nat) : Resp strict R (Act.callback env i) := by
  intro m
  unfold Act.callback
  split
  · exact fun _ => T.refl m
  · split
    · exact fun _ => T.refl m
    · exact T.inv _ m
    · exact fun _ => T.refl m

end Track

/-- What sequential stage 2 needs in addition. -/
structure TrackSeq (env : Env n) (strict : Bool) (R : M n → M n → Prop) : Prop extends
    Track env strict R where
  merit : ∀ objs i p k, (∀ v, Resp strict R (k v)) → Resp strict R (Act.getMerit objs i p k)
  loc : ∀ i p v, Resp strict R (Act.localSeq env i p v)

namespace TrackSeq
variable {env : Env n} {strict : Bool} {R : M n → M n → Prop}

theorem stepSeq (T : TrackSeq env strict R) (r : Bool) (st : Nat) (objs : Option (List F64))
    (it : Nat × Pt n) : Resp strict R (Act.stepSeq env r st objs it) := by
  unfold Act.stepSeq
  split
  · exact T.skip
  · refine T.seq (T.beginIter _) (T.seq (T.iter _) (T.merit _ _ _ _ fun v => ?_))
    intro m
    refine T.seq (T.log rfl) (T.seq ?_ (T.seq (T.callback _) T.save)) m
    split
    · exact T.loc _ _ _
    · exact T.reject _

theorem batchSeq (T : TrackSeq env strict R) (r : Bool) (st : Nat) (objs : Option (List F64))
    (its : List (Nat × Pt n)) : Resp strict R (Act.batchSeq env r st objs its) := by
  apply T.all
  intro a ha
  rw [List.mem_map] at ha
  obtain ⟨it, _, rfl⟩ := ha
  exact T.stepSeq r st objs it

end TrackSeq

/-- Continuing after a solution was processed. -/
theorem process_seq (s : Sol n) (a : Verdict → Act n) (b : Act n) :
    Act.process s (fun v => a v ;; b) = (Act.process s a ;; b) := by
  funext m
  rw [Act.seq_def]
  unfold Act.process
  dsimp only
  by_cases h : (m.opt.process s).2 = .panic
  · rw [if_pos h, if_pos h, if_neg (by simp)]
  · rw [if_neg h, if_neg h, Act.seq_def]

/-- A relation respected by the iterations of parallel stage 2. -/
structure StepPar (env : Env n) (strict : Bool) (R : M n → M n → Prop) : Prop extends
    Base env strict R where
  work : ∀ (m : M n) es, (∀ e ∈ es, Event.work e = true) → R m { m with trace := m.trace ++ es }
  evals : ∀ k, Resp strict R (Act.obsEvals k)
  quickPar : ∀ i, Resp strict R (Act.quickPar env i)
  resultPar : ∀ i v s e, Resp strict R (Act.resultPar env i v s e)
  singlePar : ∀ i p v, Resp strict R (Act.singlePar env i p v)

/-- A relation respected by the iterations of stage 2. -/
structure Stepwise (env : Env n) (strict : Bool) (R : M n → M n → Prop) : Prop extends
    StepPar env strict R where
  stepSeq : ∀ r st objs it, Resp strict R (Act.stepSeq env r st objs it)

/-- What parallel stage 2 needs in addition. -/
structure TrackPar (env : Env n) (strict : Bool) (R : M n → M n → Prop) : Prop extends
    Track env strict R where
  work : ∀ (m : M n) es, (∀ e ∈ es, Event.work e = true) → R m { m with trace := m.trace ++ es }
  evals : ∀ k, Resp strict R (Act.obsEvals k)
  proc : ∀ s k, Resp strict R (Act.process s fun v => Act.obsLocal v.returned k)

namespace TrackPar
variable {env : Env n} {strict : Bool} {R : M n → M n → Prop}

theorem search (T : TrackPar env strict R) {ty : SolverType} {cfg : SolverConfig} {it : Option Nat}
    {p : Pt n} {k : Sol n → Nat → Act n} (hk : ∀ s e, Resp strict R (k s e)) :
    Resp strict R (Act.search env ty cfg it p k) := by
  intro m
  unfold Act.search
  split
  · exact fun _ => T.work m [_] (by simp [Event.work])
  · exact fun hf => T.trans (T.work m [_] (by simp [Event.work])) (hk _ _ _ hf)

theorem seqTrack (T : TrackPar env strict R) : TrackSeq env strict R :=
  { T.toTrack with
    merit := by
      intro objs i p k hk m
      unfold Act.getMerit
      dsimp only
      have h1 : R m (if objs.isNone then { m with trace := m.trace ++ [.evaluate i p] } else m) := by
        split
        · exact T.work m [_] (by simp [Event.work])
        · exact T.refl m
      split
      · exact fun _ => h1
      · intro hf
        refine T.trans h1 (T.seq ?_ (hk _) _ hf)
        split
        · exact T.evals 1
        · exact T.skip
    loc := by
      intro i p v m
      unfold Act.localSeq
      refine T.seq (T.setThreshold v) (T.search fun s e => ?_) m
      rw [process_seq]
      exact T.seq (T.proc _ _) T.stopIfTarget }

theorem quickPar (T : TrackPar env strict R) (i : Nat) : Resp strict R (Act.quickPar env i) :=
  T.seq (T.beginIter _) (T.seq (T.reject _) (T.seq (T.iter _) (T.seq (T.callback _) T.save)))

theorem resultPar (T : TrackPar env strict R) (i : Nat) (v : F64) (s : Sol n) (e : Nat) :
    Resp strict R (Act.resultPar env i v s e) := by
  unfold Act.resultPar
  rw [process_seq]
  exact T.seq (T.beginIter _) (T.seq (T.setThreshold _) (T.seq (T.proc _ _) (T.seq (T.iter _)
    (T.seq (T.callback _) (T.seq T.stopIfTarget T.save)))))

theorem singlePar (T : TrackPar env strict R) (i : Nat) (p : Pt n) (v : F64) :
    Resp strict R (Act.singlePar env i p v) := by
  intro m
  unfold Act.singlePar
  refine T.seq (T.beginIter _) (T.seq (T.setThreshold _) (T.search fun s e => ?_)) m
  rw [process_seq]
  exact T.seq (T.proc _ _) (T.seq (T.iter _) (T.seq (T.inv _) (T.seq T.stopIfTarget T.save)))

theorem stepwise (T : TrackPar env strict R) : Stepwise env strict R where
  toBase := T.toBase
  work := T.work
  evals := T.evals
  stepSeq := T.seqTrack.stepSeq
  quickPar := T.quickPar
  resultPar := T.resultPar
  singlePar := T.singlePar

end TrackPar

namespace StepPar
variable {env : Env n} {strict : Bool} {R : M n → M n → Prop}

theorem groupPar (T : StepPar env strict R) (k : Nat) (c : List (Nat × Pt n × F64)) :
    Resp strict R (Act.groupPar env k c) := by
  intro m
  unfold Act.groupPar
  have h1 : R m { m with trace := m.trace ++ c.map (Act.solveEvent env m.opt) } := by
    apply T.work
    intro e he
    rw [List.mem_map] at he
    obtain ⟨_, _, rfl⟩ := he
    rfl
  split
  · exact fun _ => h1
  · intro hf
    refine T.trans h1 (T.all ?_ _ hf)
    intro a ha
    rw [List.mem_map] at ha
    obtain ⟨r, _, rfl⟩ := ha
    exact T.resultPar _ _ _ _

theorem localsPar (T : StepPar env strict R) (k : Nat) (c : List (Nat × Pt n × F64)) :
    Resp strict R (Act.localsPar env k c) := by
  intro m
  unfold Act.localsPar
  split
  · exact T.groupPar k c m
  · refine T.all ?_ m
    intro a ha
    rw [List.mem_map] at ha
    obtain ⟨it, _, rfl⟩ := ha
    exact T.singlePar _ _ _

theorem afterEval (T : StepPar env strict R) (objs : Option (List F64)) (k : Nat)
    (vals : List (Nat × Pt n × F64)) : Resp strict R (Act.afterEval env objs k vals) := by
  intro m hf
  unfold Act.afterEval at hf ⊢
  refine T.trans (T.logs m (vals.map fun c => Event.examine c.1 c.2.1 c.2.2
    (Act.passes m.opt c)) ?_) (T.seq ?_ (T.seq (T.all ?_) (T.localsPar _ _)) _ hf)
  · intro e he
    rw [List.mem_map] at he
    obtain ⟨_, _, rfl⟩ := he
    rfl
  · split
    · exact T.evals _
    · exact T.skip
  · intro a ha
    rw [List.mem_map] at ha
    obtain ⟨it, _, rfl⟩ := ha
    exact T.quickPar _

theorem logEvals (T : StepPar env strict R) (objs : Option (List F64)) (its : List (Nat × Pt n))
    (m : M n) : R m (Act.logEvals objs its m) := by
  unfold Act.logEvals
  split
  · apply T.work
    intro e he
    rw [List.mem_map] at he
    obtain ⟨_, _, rfl⟩ := he
    rfl
  · exact T.refl m

theorem batchPar (T : StepPar env strict R) (r : Bool) (st : Nat) (objs : Option (List F64))
    (its : List (Nat × Pt n)) : Resp strict R (Act.batchPar env r st objs its) := by
  unfold Act.batchPar
  generalize (if r then its.filter (fun it => st ≤ it.1) else its) = l
  cases l with
  | nil => exact T.skip
  | cons it0 its =>
    intro m
    simp only [Act.batchParItems]
    split
    · exact fun _ => T.logEvals objs _ m
    · exact fun hf => T.trans (T.logEvals objs _ m) (T.afterEval objs _ _ _ hf)

end StepPar

namespace Stepwise
variable {env : Env n} {strict : Bool} {R : M n → M n → Prop}

theorem batchSeq (T : Stepwise env strict R) (r : Bool) (st : Nat) (objs : Option (List F64))
    (its : List (Nat × Pt n)) : Resp strict R (Act.batchSeq env r st objs its) := by
  apply T.all
  intro a ha
  rw [List.mem_map] at ha
  obtain ⟨it, _, rfl⟩ := ha
  exact T.stepSeq r st objs it

end Stepwise


theorem Stepwise.main {env : Env n} {strict : Bool} {R : M n → M n → Prop} (T : Stepwise env strict R)
    (r : Bool) (st : Nat) (ref : List (Pt n)) (objs : Option (List F64)) :
    Resp strict R (Act.stage2Main env r st ref objs) := fun m hf =>
  T.stage2Main r st ref objs m (by
    intro b
    unfold Act.procBatch
    split
    · exact T.batchPar _ _ _ _
    · exact T.batchSeq _ _ _ _) hf

theorem StepPar.main {env : Env n} {strict : Bool} {R : M n → M n → Prop} (T : StepPar env strict R)
    (r : Bool) (st : Nat) (ref : List (Pt n)) (objs : Option (List F64)) (m : M n)
    (hs : 1 < m.opt.effBatch env.threads st)
    (hf : Fine strict (Act.stage2Main env r st ref objs m).2) :
    R m (Act.stage2Main env r st ref objs m).1 :=
  T.stage2Main r st ref objs m (by
    intro b
    unfold Act.procBatch
    rw [if_pos hs]
    exact T.batchPar _ _ _ _) hf

theorem TrackPar.main {env : Env n} {strict : Bool} {R : M n → M n → Prop} (T : TrackPar env strict R)
    (r : Bool) (st : Nat) (ref : List (Pt n)) (objs : Option (List F64)) :
    Resp strict R (Act.stage2Main env r st ref objs) := T.stepwise.main r st ref objs

theorem TrackSeq.main {env : Env n} {strict : Bool} {R : M n → M n → Prop} (T : TrackSeq env strict R)
    (r : Bool) (st : Nat) (ref : List (Pt n)) (objs : Option (List F64)) (m : M n)
    (hs : ¬ 1 < m.opt.effBatch env.threads st)
    (hf : Fine strict (Act.stage2Main env r st ref objs m).2) :
    R m (Act.stage2Main env r st ref objs m).1 :=
  T.stage2Main r st ref objs m (by
    intro b
    unfold Act.procBatch
    rw [if_neg hs]
    exact T.batchSeq _ _ _ _) hf

end GS
