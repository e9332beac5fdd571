/- The messages about stages, time limit and target, and when they appear. -/
import Verif.Lemmas.Announce

namespace GS
variable {n : Nat}

/-- Messages about the course of the run: everything but lines about solutions, threshold and checkpoints. Used in
proofs and statements; no counterpart in /repo. -/
def VLine.course : VLine n → Bool
  | .base _ | .addedLocal .. => false
  | _ => true

theorem reached_same {a b : Opt n} (h : SameCfg a b) (hs : b.solset = a.solset) : b.targetReached = a.targetReached := by
  unfold Opt.targetReached
  rw [h.target, hs, h.exclude, h.problem]

theorem shown_same {a b : Opt n} (h : SameCfg a b) : b.targetShown = a.targetShown := by
  unfold Opt.targetShown
  rw [h.target]

/-- How a piece of stage 2 ends: it stops with the message about the target, or says nothing about the course of the
run. Used in proofs only; no counterpart in /repo. -/
def Ends (strict : Bool) (a : VAct n) : Prop := ∀ t : Talk n,
  SameCfg t.1.opt (a t).1.1.opt ∧
  ((a t).2 = .stop → (a t).1.1.opt.targetReached = true ∧
    ∃ it, (a t).1.2.filter VLine.course = t.2.filter VLine.course ++ [.targetIter it t.1.opt.targetShown]) ∧
  ((a t).2 ≠ .stop → (a t).1.2.filter VLine.course = t.2.filter VLine.course) ∧
  ((a t).2 = .cont → (a t).1.1.opt.targetReached = true → strict = false ∧ t.1.opt.targetReached = true)

/-- Recording events in between changes nothing. -/
theorem Ends.logged {b : Bool} {a : VAct n} (h : Ends b a) (t : Talk n) (m : M n) (hm : m.opt = t.1.opt) :
    SameCfg t.1.opt (a (m, t.2)).1.1.opt ∧
    ((a (m, t.2)).2 = .stop → (a (m, t.2)).1.1.opt.targetReached = true ∧
      ∃ it, (a (m, t.2)).1.2.filter VLine.course = t.2.filter VLine.course ++ [.targetIter it t.1.opt.targetShown]) ∧
    ((a (m, t.2)).2 ≠ .stop → (a (m, t.2)).1.2.filter VLine.course = t.2.filter VLine.course) ∧
    ((a (m, t.2)).2 = .cont → (a (m, t.2)).1.1.opt.targetReached = true →
      b = false ∧ t.1.opt.targetReached = true) := by
  have := h (m, t.2)
  rw [hm] at this
  exact this

theorem Ends.seq {b1 b2 : Bool} {a b : VAct n} (ha : Ends b1 a) (hb : Ends b2 b) : Ends (b1 || b2) (a ;;; b) := by
  intro t
  obtain ⟨a1, a2, a3, a4⟩ := ha t
  unfold VAct.seq
  split
  · rename_i hc
    obtain ⟨c1, c2, c3, c4⟩ := hb (a t).1
    have hne : (a t).2 ≠ .stop := by rw [hc]; intro h; cases h
    refine ⟨a1.trans c1, fun h => ?_, fun h => (c3 h).trans (a3 hne), fun h hr => ?_⟩
    · obtain ⟨d1, it, d2⟩ := c2 h
      exact ⟨d1, it, by rw [d2, a3 hne, shown_same a1]⟩
    · obtain ⟨d1, d2⟩ := c4 h hr
      obtain ⟨d3, d4⟩ := a4 hc d2
      exact ⟨by rw [d1, d3]; rfl, d4⟩
  · rename_i hc
    exact ⟨a1, a2, a3, fun h => absurd h hc⟩

theorem Ends.weak {b1 : Bool} {a : VAct n} (h : Ends b1 a) : Ends false a := fun t =>
  ⟨(h t).1, (h t).2.1, (h t).2.2.1, fun hc hr => ⟨rfl, ((h t).2.2.2 hc hr).2⟩⟩

/-- A piece that says nothing about the course of the run and keeps the solution set. -/
theorem Ends.same {a : VAct n} (h1 : ∀ t, SameCfg t.1.opt (a t).1.1.opt) (h2 : ∀ t, (a t).2 ≠ .stop)
    (h3 : ∀ t, (a t).1.2.filter VLine.course = t.2.filter VLine.course)
    (h4 : ∀ t, (a t).1.1.opt.solset = t.1.opt.solset) : Ends false a := fun t =>
  ⟨h1 t, fun h => absurd h (h2 t), fun _ => h3 t, fun _ hr => ⟨rfl, by rw [← reached_same (h1 t) (h4 t)]; exact hr⟩⟩

theorem Ends.quiet {a : Act n} {env : Env n} (hs : Steps env a) (hc : Calm a) (hn : ∀ m, (a m).2 ≠ .stop) :
    Ends false (VAct.quiet a) :=
  Ends.same (fun t => (hs t.1).cfg) (fun t => hn t.1) (fun _ => rfl) (fun t => (hc t.1).2.1)

theorem Ends.all {l : List (VAct n)} (h : ∀ a ∈ l, Ends false a) : Ends false (VAct.all l) := by
  induction l with
  | nil => exact Ends.same (fun t => SameCfg.refl _) (fun _ h => by cases h) (fun _ => rfl) (fun _ => rfl)
  | cons a l ih => exact (h a (by simp)).seq (ih fun x hx => h x (by simp [hx]))

theorem course_base (l : List (Line n)) : (l.map VLine.base).filter VLine.course = [] :=
  List.filter_eq_nil_iff.2 fun x hx => by
    obtain ⟨y, _, rfl⟩ := List.mem_map.1 hx
    simp [VLine.course]

theorem Ends.skip : Ends false (VAct.quiet (Act.skip : Act n)) :=
  Ends.same (fun t => SameCfg.refl _) (fun _ h => by cases h) (fun _ => rfl) (fun _ => rfl)

theorem Ends.tell (i : Nat) (s : Sol n) (v : Verdict) : Ends false (VAct.tell i s v) :=
  Ends.same (fun t => SameCfg.refl _) (fun _ h => by cases h) (fun t => by
    unfold VAct.tell VAct.say
    dsimp only
    rw [List.filter_append]
    split
    · exact List.append_nil _
    · exact List.append_nil _) (fun _ => rfl)

theorem Ends.stopIfTarget (i : Nat) : Ends true (VAct.stopIfTarget (n := n) i) := by
  intro t
  unfold VAct.stopIfTarget
  split
  · rename_i h
    exact ⟨SameCfg.refl _, fun _ => ⟨h, i, by rw [List.filter_append]; rfl⟩, fun h => absurd rfl h, fun h => (by cases h)⟩
  · rename_i h
    exact ⟨SameCfg.refl _, fun h => (by cases h), fun _ => rfl, fun _ hr => absurd hr h⟩

theorem reject_cont (i : Nat) (m : M n) : (Act.reject i m).2 = .cont := by
  unfold Act.reject
  split <;> rfl

theorem Ends.reject (env : Env n) (i : Nat) : Ends false (VAct.reject (n := n) i) :=
  Ends.same (fun t => by rw [(Over.reject i t).1]; exact (Steps.reject env i t.1).cfg)
    (fun t => by rw [(Over.reject i t).2, reject_cont]; intro h; cases h)
    (fun t => by
      unfold VAct.reject
      split
      · show (t.2 ++ [_]).filter _ = _
        rw [List.filter_append]; exact List.append_nil _
      · rfl)
    (fun t => by
      rw [(Over.reject i t).1]
      unfold Act.reject
      split <;> rfl)

theorem writeCkpt_keeps (env : Env n) (m : M n) : (Act.writeCkpt env m).1.opt = m.opt ∧
    (Act.writeCkpt env m).2 ≠ .stop := by
  unfold Act.writeCkpt
  dsimp only
  split
  · exact ⟨rfl, by intro h; cases h⟩
  · exact ⟨rfl, by intro h; cases h⟩

theorem Ends.writeCkpt (env : Env n) : Ends false (VAct.writeCkpt env) :=
  Ends.same (fun t => by rw [(Over.writeCkpt env t).1, (writeCkpt_keeps env t.1).1]; exact SameCfg.refl _)
    (fun t => by rw [(Over.writeCkpt env t).2]; exact (writeCkpt_keeps env t.1).2)
    (fun t => by
      unfold VAct.writeCkpt
      split
      · rfl
      · unfold VAct.seq
        split
        · show (t.2 ++ [_]).filter _ = _
          rw [List.filter_append]; exact List.append_nil _
        · rfl)
    (fun t => by rw [(Over.writeCkpt env t).1, (writeCkpt_keeps env t.1).1])

theorem Ends.cases {b : Bool} {a : VAct n} (h : ∀ t, ∃ c : VAct n, Ends b c ∧ a t = c t) : Ends b a := by
  intro t
  obtain ⟨c, hc, he⟩ := h t
  rw [he]
  exact hc t

theorem Ends.failing (e : Err) : Ends true (fun t : Talk n => (t, .fail e)) := fun t =>
  ⟨SameCfg.refl _, fun h => (by cases h), fun _ => rfl, fun h => (by cases h)⟩

theorem Ends.save (env : Env n) : Ends false (VAct.save env) := by
  refine Ends.cases fun t => ?_
  unfold VAct.save
  split
  · exact ⟨_, Ends.skip, rfl⟩
  · split
    · exact ⟨_, (Ends.failing .panic).weak, rfl⟩
    · split
      · exact ⟨_, Ends.writeCkpt env, rfl⟩
      · exact ⟨_, Ends.skip, rfl⟩

theorem Ends.saveFinal (env : Env n) : Ends false (VAct.saveFinal env) := by
  refine Ends.cases fun t => ?_
  unfold VAct.saveFinal
  split
  · exact ⟨_, Ends.skip, rfl⟩
  · exact ⟨_, Ends.writeCkpt env, rfl⟩

theorem Ends.process {s : Sol n} {k : Verdict → VAct n} (hk : ∀ v, Ends true (k v)) : Ends true (VAct.process s k) := by
  intro t
  have hc := Opt.process_cfg t.1.opt s
  have hf : (t.2 ++ (processLines t.1.opt.solset s (t.1.opt.process s).2).map VLine.base).filter VLine.course =
      t.2.filter VLine.course := by rw [List.filter_append, course_base, List.append_nil]
  unfold VAct.process
  dsimp only
  split
  · exact ⟨hc, fun h => (by cases h), fun _ => hf, fun h => (by cases h)⟩
  · obtain ⟨a1, a2, a3, a4⟩ := hk (t.1.opt.process s).2
      ({ t.1 with opt := (t.1.opt.process s).1, trace := t.1.trace ++ [.processed s (t.1.opt.process s).2] },
        t.2 ++ (processLines t.1.opt.solset s (t.1.opt.process s).2).map VLine.base)
    refine ⟨hc.trans a1, fun h => ?_, fun h => (a3 h).trans hf, fun h hr => ?_⟩
    · obtain ⟨d1, it, d2⟩ := a2 h
      refine ⟨d1, it, d2.trans ?_⟩
      rw [hf, shown_same hc]
    · obtain ⟨d1, _⟩ := a4 h hr
      cases d1

theorem Ends.search (env : Env n) (ty : SolverType) (cfg : SolverConfig) (i : Option Nat) (p : Pt n)
    {k : Sol n → Nat → VAct n} (hk : ∀ s e, Ends true (k s e)) : Ends true (VAct.search env ty cfg i p k) := by
  intro t
  unfold VAct.search
  split
  · exact ⟨SameCfg.refl _, fun h => (by cases h), fun _ => rfl, fun h => (by cases h)⟩
  · exact (hk _ _).logged t _ rfl

theorem Ends.getMerit (objs : Option (List F64)) (i : Nat) (p : Pt n) {k : F64 → VAct n} {b : Bool}
    (hk : ∀ v, Ends b (k v)) : Ends b (VAct.getMerit objs i p k) := by
  intro t
  unfold VAct.getMerit
  dsimp only
  have hq : Ends false (VAct.quiet (if objs.isNone then Act.obsEvals (n := n) 1 else Act.skip)) := by
    split
    · exact Ends.same (fun t => ⟨rfl, rfl, rfl, rfl, rfl, rfl, rfl, rfl, rfl, rfl, rfl, rfl, rfl, rfl⟩)
        (fun _ h => by cases h) (fun _ => rfl) (fun _ => rfl)
    · exact Ends.skip
  split
  · split <;> exact ⟨SameCfg.refl _, fun h => (by cases h), fun _ => rfl, fun h => (by cases h)⟩
  · rename_i v _
    have := Ends.seq hq (hk v)
    rw [Bool.false_or] at this
    refine this.logged t (if objs.isNone = true then _ else t.1) ?_
    split <;> rfl

theorem beginIter_go (env : Env n) (i : Nat) (m : M n) : (Act.beginIter env i m).2 ≠ .stop := by
  unfold Act.beginIter
  dsimp only
  split <;> intro h <;> cases h

theorem callback_go (env : Env n) (i : Nat) (m : M n) : (Act.callback env i m).2 ≠ .stop := by
  unfold Act.callback
  split
  · intro h; cases h
  · split
    · intro h; cases h
    · rw [invoke_cont]; intro h; cases h
    · intro h; cases h

theorem Ends.beginIter (env : Env n) (i : Nat) : Ends false (VAct.quiet (Act.beginIter env i)) :=
  Ends.quiet (Steps.beginIter env i) (Calm.beginIter env i) (beginIter_go env i)

theorem Ends.obsIter (env : Env n) (i : Nat) : Ends false (VAct.quiet (Act.obsIter (n := n) i)) :=
  Ends.quiet (Steps.obsIter env i) (Calm.obsIter i) fun _ h => (by cases h)

theorem Ends.obsLocal (env : Env n) (b : Bool) (i : Nat) : Ends false (VAct.quiet (Act.obsLocal (n := n) b i)) :=
  Ends.quiet (Steps.obsLocal env b i) (Calm.obsLocal b i) fun _ h => (by cases h)

theorem Ends.setThreshold (env : Env n) (v : F64) : Ends false (VAct.quiet (Act.setThreshold (n := n) v)) :=
  Ends.quiet (Steps.setThreshold env v) (Calm.setThreshold v) fun _ h => (by cases h)

theorem Ends.callback (env : Env n) (i : Nat) : Ends false (VAct.quiet (Act.callback env i)) :=
  Ends.quiet (Steps.callback env i) (Calm.callback env i) (callback_go env i)

theorem Ends.invoke (env : Env n) (i : Nat) : Ends false (VAct.quiet (Act.invoke env i)) :=
  Ends.quiet (Steps.invoke env i) (Calm.invoke env i) fun m h => by rw [invoke_cont] at h; cases h

theorem Ends.localSeq (env : Env n) (i : Nat) (p : Pt n) (v : F64) : Ends true (VAct.localSeq env i p v) :=
  Ends.cases fun t => ⟨_, (Ends.setThreshold env v).seq (Ends.search env t.1.opt.lsType t.1.opt.lsConfig (some i) p
    fun s e => Ends.process fun v => (Ends.obsLocal env v.returned e).seq ((Ends.tell i s v).seq
      (Ends.stopIfTarget i))), rfl⟩

theorem Ends.stepSeq (env : Env n) (r : Bool) (st : Nat) (objs : Option (List F64)) (it : Nat × Pt n) :
    Ends false (VAct.stepSeq env r st objs it) := by
  unfold VAct.stepSeq
  split
  · exact Ends.skip
  · refine (Ends.beginIter env _).seq ((Ends.obsIter env _).seq (Ends.getMerit _ _ _ (b := false) fun v =>
      Ends.cases fun t => ⟨_, (Ends.quiet (Steps.log (env := env) (e := .examine it.1 it.2 v (t.1.opt.shouldStart it.2 v))
        rfl rfl) (Calm.log rfl) fun _ h => (by cases h)).seq
        (Ends.seq (b1 := false) (a := if t.1.opt.shouldStart it.2 v then VAct.localSeq env it.1 it.2 v
          else VAct.reject it.1) ?_ ((Ends.callback env it.1).seq (Ends.save env))), rfl⟩))
    split
    · exact (Ends.localSeq env _ _ _).weak
    · exact Ends.reject env _

theorem Ends.quickPar (env : Env n) (i : Nat) : Ends false (VAct.quickPar env i) :=
  (Ends.beginIter env i).seq ((Ends.reject env i).seq ((Ends.obsIter env i).seq ((Ends.callback env i).seq
    (Ends.save env))))

theorem Ends.resultPar (env : Env n) (i : Nat) (v : F64) (s : Sol n) (e : Nat) :
    Ends true (VAct.resultPar env i v s e) :=
  (Ends.beginIter env i).seq ((Ends.setThreshold env v).seq (Ends.process fun v => (Ends.obsLocal env v.returned e).seq
    ((Ends.tell i s v).seq ((Ends.obsIter env i).seq ((Ends.callback env i).seq ((Ends.stopIfTarget i).seq
      (Ends.save env)))))))

theorem Ends.singlePar (env : Env n) (i : Nat) (p : Pt n) (v : F64) : Ends true (VAct.singlePar env i p v) :=
  Ends.cases fun t => ⟨_, (Ends.beginIter env i).seq ((Ends.setThreshold env v).seq
    (Ends.search env t.1.opt.lsType t.1.opt.lsConfig (some i) p fun s e => Ends.process fun v =>
      (Ends.obsLocal env v.returned e).seq ((Ends.obsIter env i).seq ((Ends.invoke env (16 + i)).seq
        ((Ends.tell i s v).seq ((Ends.stopIfTarget i).seq (Ends.save env))))))), rfl⟩

theorem Ends.localsPar (env : Env n) (k : Nat) (c : List (Nat × Pt n × F64)) : Ends false (VAct.localsPar env k c) := by
  intro t
  unfold VAct.localsPar
  split
  · unfold VAct.groupPar
    split
    · exact ⟨SameCfg.refl _, fun h => (by cases h), fun _ => rfl, fun h => (by cases h)⟩
    · rename_i rs _
      refine Ends.logged (Ends.all fun a ha => ?_) t _ rfl
      obtain ⟨r, _, rfl⟩ := List.mem_map.1 ha
      exact (Ends.resultPar env _ _ _ _).weak
  · refine Ends.all (fun a ha => ?_) t
    obtain ⟨r, _, rfl⟩ := List.mem_map.1 ha
    exact (Ends.singlePar env _ _ _).weak

theorem Ends.procBatch (env : Env n) (r : Bool) (st : Nat) (objs : Option (List F64)) (eff : Nat)
    (its : List (Nat × Pt n)) : Ends false (VAct.procBatch env r st objs eff its) := by
  unfold VAct.procBatch
  split
  · unfold VAct.batchPar
    generalize (if r = true then _ else _ : List (Nat × Pt n)) = l
    cases l with
    | nil => exact Ends.skip
    | cons it l =>
      intro t
      have hl : (Act.logEvals objs (it :: l) t.1).opt = t.1.opt := by
        unfold Act.logEvals
        split <;> rfl
      unfold VAct.batchParItems
      dsimp only
      split
      · exact ⟨by rw [hl]; exact SameCfg.refl _, fun h => (by cases h), fun _ => rfl, fun h => (by cases h)⟩
      · refine Ends.logged (a := VAct.afterEval env objs it.1 _) (fun t => ?_) t _ hl
        unfold VAct.afterEval
        refine Ends.logged (b := false) (Ends.seq (b1 := false) (b2 := false) ?_ (Ends.seq (b1 := false) (b2 := false)
          (Ends.all fun a ha => ?_) (Ends.localsPar env _ _))) t _ rfl
        · split
          · exact Ends.quiet (Steps.obsEvals env _) (Calm.obsEvals _) fun _ h => (by cases h)
          · exact Ends.skip
        · obtain ⟨r, _, rfl⟩ := List.mem_map.1 ha
          exact Ends.quickPar env _
  · refine Ends.all fun a ha => ?_
    obtain ⟨i, _, rfl⟩ := List.mem_map.1 ha
    exact Ends.stepSeq env r st objs i

/-- The messages that end stage 2. Used in proofs and statements; no counterpart in /repo. -/
inductive LastWords (clock : Nat → F64) (o : Opt n) : List (VLine n) → Prop
  /-- all iterations were done, or a failure -/
  | none : LastWords clock o []
  /-- the time limit was exceeded -/
  | timeout {l : F64} {k : Nat} (h : o.maxTime = some l) (hk : F64.gt (clock k) l = true) : LastWords clock o [.timeout l]
  /-- the target was reached by a stage-2 solution -/
  | target {t : F64} {it : Nat} (h : o.target = some t) : LastWords clock o [.targetIter it t, .targetBatch t]
  /-- the target had been reached before -/
  | before {t : F64} (h : o.target = some t) (hr : o.targetReached = true) : LastWords clock o [.targetBatch t]

theorem reached_target {o : Opt n} (h : o.targetReached = true) : o.target = some o.targetShown := by
  unfold Opt.targetReached at h
  unfold Opt.targetShown
  cases ht : o.target with
  | none => rw [ht] at h; cases h
  | some t => rfl

theorem LastWords.same {clock : Nat → F64} {a b : Opt n} {w : List (VLine n)} (h : LastWords clock b w)
    (hc : SameCfg a b) (hr : b.targetReached = true → a.targetReached = true) : LastWords clock a w := by
  cases h with
  | none => exact .none
  | timeout h hk => exact .timeout (hc.maxTime ▸ h) hk
  | target h => exact .target (hc.target ▸ h)
  | before h h' => exact .before (hc.target ▸ h) (hr h')

/-- The course of stage 2 as far as it is announced: the messages, and what they mean for the target. -/
theorem loop_course (env : Env n) (r : Bool) (st : Nat) (objs : Option (List F64)) (eff k : Nat)
    (bs : List (List (Nat × Pt n))) (t : Talk n) : ∃ w, LastWords env.clock t.1.opt w ∧
    SameCfg t.1.opt (VAct.loop env r st objs eff k bs t).1.1.opt ∧
    (VAct.loop env r st objs eff k bs t).1.2.filter VLine.course = t.2.filter VLine.course ++ w ∧
    (VAct.loop env r st objs eff k bs t).2 ≠ .stop ∧
    ((VAct.loop env r st objs eff k bs t).2 ≠ .cont → w = []) ∧
    ((∃ x, .targetBatch x ∈ w) → (VAct.loop env r st objs eff k bs t).1.1.opt.targetReached = true) ∧
    (t.1.opt.targetReached = false → (VAct.loop env r st objs eff k bs t).2 = .cont →
      (VAct.loop env r st objs eff k bs t).1.1.opt.targetReached = true → ∃ x, .targetBatch x ∈ w) := by
  induction bs generalizing k t with
  | nil =>
    exact ⟨[], .none, SameCfg.refl _, (List.append_nil _).symm, fun h => (by cases h), fun h => absurd rfl h,
      fun ⟨x, hx⟩ => (by cases hx), fun h _ h' => (by rw [show (VAct.loop env r st objs eff k [] t).1 = t from rfl, h] at h'; cases h')⟩
  | cons b bs ih =>
    unfold VAct.loop
    split
    · rename_i hto
      unfold Act.timedOut at hto
      cases hm : t.1.opt.maxTime with
      | none => rw [hm] at hto; cases hto
      | some l =>
        rw [hm] at hto
        have hl : VAct.limitShown t.1.opt = l := by unfold VAct.limitShown; rw [hm]; rfl
        rw [hl]
        exact ⟨[.timeout l], .timeout hm hto, SameCfg.refl _, by rw [List.filter_append]; rfl, fun h => (by cases h),
          fun h => absurd rfl h, fun ⟨x, hx⟩ => (by cases List.mem_singleton.1 hx),
          fun h _ h' => (by dsimp only at h'; rw [h] at h'; cases h')⟩
    · have he := Ends.procBatch env r st objs eff b t
      cases hr : VAct.procBatch env r st objs eff b t with
      | mk t' out =>
        rw [hr] at he
        obtain ⟨e1, e2, e3, e4⟩ := he
        cases out with
        | fail e =>
          exact ⟨[], .none, e1, (e3 fun h => by cases h).trans (List.append_nil _).symm, fun h => (by cases h),
            fun _ => rfl, fun ⟨x, hx⟩ => (by cases hx), fun _ h => (by cases h)⟩
        | cont =>
          have hf := e3 fun h => by cases h
          dsimp only
          split
          · rename_i hreach
            have h0 := (e4 rfl hreach).2
            have ht : t'.1.opt.targetShown = t.1.opt.targetShown := shown_same e1
            refine ⟨[.targetBatch t.1.opt.targetShown], .before (reached_target h0) h0, e1, ?_, fun h => (by cases h),
              fun h => absurd rfl h, fun _ => hreach, fun _ _ _ => ⟨_, List.mem_singleton.2 rfl⟩⟩
            show (t'.2 ++ [_]).filter _ = _
            rw [List.filter_append, hf, ht]; rfl
          · rename_i hreach
            obtain ⟨w, w1, w2, w3, w4, w5, w6, w7⟩ := ih (k + 1) t'
            refine ⟨w, w1.same e1 fun h => absurd h hreach, e1.trans w2, w3.trans (by rw [hf]), w4, w5, w6,
              fun _ => w7 (by simpa using hreach)⟩
        | stop =>
          obtain ⟨hreach, it, hf⟩ := e2 rfl
          dsimp only
          rw [if_pos hreach]
          have ht : t'.1.opt.targetShown = t.1.opt.targetShown := shown_same e1
          refine ⟨[.targetIter it t.1.opt.targetShown, .targetBatch t.1.opt.targetShown],
            .target (by rw [← e1.target, reached_target hreach, ht]), e1, ?_, fun h => (by cases h),
            fun h => absurd rfl h, fun _ => hreach, fun _ _ _ => ⟨_, List.mem_cons_of_mem _ (List.mem_singleton.2 rfl)⟩⟩
          show (t'.2 ++ [_]).filter _ = _
          rw [List.filter_append, hf, ht, List.append_assoc]; rfl

/-- What a piece of code does to the messages about the course of the run, from stage 2 on. Used in proofs only; no
counterpart in /repo. -/
def Closes (clock : Nat → F64) (pre : List (VLine n)) (t : Talk n) (r : Talk n × Out) : Prop :=
  ∃ w, LastWords clock t.1.opt w ∧ SameCfg t.1.opt r.1.1.opt ∧
    r.1.2.filter VLine.course = t.2.filter VLine.course ++ (pre ++ w) ∧ r.2 ≠ .stop ∧
    ((∃ x, .targetBatch x ∈ w) → r.2 = .cont → r.1.1.opt.targetReached = true) ∧
    (t.1.opt.targetReached = false → r.2 = .cont → r.1.1.opt.targetReached = true → ∃ x, .targetBatch x ∈ w)

theorem closes_fail (clock : Nat → F64) (t : Talk n) (e : Err) : Closes clock [] t (t, .fail e) :=
  ⟨[], .none, SameCfg.refl _, (List.append_nil _).symm, fun h => (by cases h), fun ⟨x, hx⟩ => (by cases hx),
    fun _ h => (by cases h)⟩

/-- Something quiet before. -/
theorem Closes.pre {clock : Nat → F64} {a b : VAct n} (ha : Ends false a) (hc : ∀ t, (a t).2 = .cont)
    (hs : ∀ t, (a t).1.1.opt.solset = t.1.opt.solset) {t : Talk n} (hb : Closes clock [] (a t).1 (b (a t).1)) :
    Closes clock [] t ((a ;;; b) t) := by
  obtain ⟨w, w1, w2, w3, w4, w5, w6⟩ := hb
  obtain ⟨a1, _, a3, a4⟩ := ha t
  unfold VAct.seq
  rw [if_pos (hc t)]
  have hr := reached_same a1 (hs t)
  refine ⟨w, w1.same a1 fun h => hr ▸ h, a1.trans w2, ?_, w4, w5, fun h => w6 (hr.trans h)⟩
  rw [w3, a3 (by rw [hc t]; intro h; cases h)]

/-- Something quiet after. -/
theorem Closes.post {clock : Nat → F64} {a b : VAct n} {t : Talk n} (ha : Closes clock [] t (a t)) (hb : Ends false b)
    (hc : ∀ t, (b t).2 ≠ .stop) (hs : ∀ t, (b t).1.1.opt.solset = t.1.opt.solset) :
    Closes clock [] t ((a ;;; b) t) := by
  obtain ⟨w, w1, w2, w3, w4, w5, w6⟩ := ha
  obtain ⟨b1, _, b3, b4⟩ := hb (a t).1
  unfold VAct.seq
  split
  · rename_i h
    have hr := reached_same b1 (hs _)
    exact ⟨w, w1, w2.trans b1, (b3 (hc _)).trans w3, hc _, fun hx _ => hr.trans (w5 hx h),
      fun h' _ h3 => w6 h' h (hr ▸ h3)⟩
  · exact ⟨w, w1, w2, w3, w4, w5, w6⟩

theorem loop_closes (env : Env n) (r : Bool) (st : Nat) (objs : Option (List F64)) (eff k : Nat)
    (bs : List (List (Nat × Pt n))) (t : Talk n) :
    Closes env.clock [] t (VAct.loop env r st objs eff k bs t) := by
  obtain ⟨w, w1, w2, w3, w4, w5, w6, w7⟩ := loop_course env r st objs eff k bs t
  exact ⟨w, w1, w2, w3, w4, fun h _ => w6 h, w7⟩

theorem writeCkptV_solset (env : Env n) (t : Talk n) : (VAct.writeCkpt env t).1.1.opt.solset = t.1.opt.solset := by
  rw [(Over.writeCkpt env t).1, (writeCkpt_keeps env t.1).1]

theorem saveFinalV (env : Env n) (t : Talk n) : (VAct.saveFinal env t).1.1.opt.solset = t.1.opt.solset ∧
    (VAct.saveFinal env t).2 ≠ .stop := by
  unfold VAct.saveFinal
  split
  · exact ⟨rfl, fun h => (by cases h)⟩
  · exact ⟨writeCkptV_solset env t, by rw [(Over.writeCkpt env t).2]; exact (writeCkpt_keeps env t.1).2⟩

theorem endV (env : Env n) (t : Talk n) :
    ((VAct.quiet (Act.obsEnd2 env) ;;; VAct.saveFinal env) t).1.1.opt.solset = t.1.opt.solset ∧
    ((VAct.quiet (Act.obsEnd2 env) ;;; VAct.saveFinal env) t).2 ≠ .stop := saveFinalV env _

theorem stage2Main_closes (env : Env n) (r : Bool) (st : Nat) (ref : List (Pt n)) (objs : Option (List F64))
    (t : Talk n) : Closes env.clock [] t (VAct.stage2Main env r st ref objs t) := by
  unfold VAct.stage2Main
  split
  · exact closes_fail _ t _
  · exact Closes.post (loop_closes env _ _ _ _ _ _ t)
      ((Ends.same (fun _ => ⟨rfl, rfl, rfl, rfl, rfl, rfl, rfl, rfl, rfl, rfl, rfl, rfl, rfl, rfl⟩)
        (fun _ h => (by cases h)) (fun _ => rfl) (fun _ => rfl)).seq (Ends.saveFinal env))
      (fun t => (endV env t).2) (fun t => (endV env t).1)

theorem stage2_closes (env : Env n) (r : Bool) (ref : List (Pt n)) (objs : Option (List F64)) (t : Talk n) :
    Closes env.clock [.stage2] t (VAct.stage2 env r ref objs t) := by
  have key : ∀ t, Closes env.clock [] t ((VAct.quiet (Act.obsStart2 env) ;;; fun t =>
      if r then VAct.stage2Main env true t.1.opt.curIter ref objs t
      else
        match Opt.shuffleSeed env t.1.opt.params.seed t.1.opt.curIter with
        | none => (t, .fail .panic)
        | some sd => (VAct.quiet (Act.setSeed sd) ;;;
            VAct.stage2Main env false 0 (env.rt.shuffle sd ref) objs) t) t) := by
    intro t
    refine Closes.pre (Ends.same (fun _ => ⟨rfl, rfl, rfl, rfl, rfl, rfl, rfl, rfl, rfl, rfl, rfl, rfl, rfl, rfl⟩)
      (fun _ h => (by cases h)) (fun _ => rfl) (fun _ => rfl)) (fun _ => rfl) (fun _ => rfl) ?_
    generalize (VAct.quiet (Act.obsStart2 env) t).1 = t1
    split
    · exact stage2Main_closes env _ _ _ _ t1
    · split
      · exact closes_fail _ t1 _
      · exact Closes.pre (Ends.same (fun _ => ⟨rfl, rfl, rfl, rfl, rfl, rfl, rfl, rfl, rfl, rfl, rfl, rfl, rfl, rfl⟩)
          (fun _ h => (by cases h)) (fun _ => rfl) (fun _ => rfl)) (fun _ => rfl) (fun _ => rfl)
          (stage2Main_closes env _ _ _ _ _)
  obtain ⟨w, w1, w2, w3, w4, w5, w6⟩ := key (t.1, t.2 ++ [.stage2])
  refine ⟨w, w1, w2, w3.trans ?_, w4, w5, w6⟩
  rw [List.filter_append, List.append_assoc]
  rfl

/-- How the first local search and the end of stage 1 are reported. Used in proofs only; no counterpart in /repo. -/
inductive Opens (t : Talk n) (r : Talk n × Out) : Prop
  /-- the search failed -/
  | failed (hf : ∃ e, r.2 = .fail e) (hc : r.1.2.filter VLine.course = t.2.filter VLine.course)
  /-- the solution could not be processed -/
  | stuck {f : F64} (hf : ∃ e, r.2 = .fail e)
      (hc : r.1.2.filter VLine.course = t.2.filter VLine.course ++ [.local1 f])
      (hs : ∃ p s, .search none p (.ok s) ∈ r.1.1.trace ∧ s.objective = f)
  /-- the target is reached -/
  | target {f : F64} (hf : r.2 = .stop) (hr : r.1.1.opt.targetReached = true)
      (hc : r.1.2.filter VLine.course = t.2.filter VLine.course ++ [.local1 f, .target1 t.1.opt.targetShown])
      (hs : ∃ p s, .search none p (.ok s) ∈ r.1.1.trace ∧ s.objective = f)
  /-- the run goes on -/
  | on {f : F64} (hf : r.2 = .cont) (hr : r.1.1.opt.targetReached = false)
      (hc : r.1.2.filter VLine.course = t.2.filter VLine.course ++ [.local1 f])
      (hs : ∃ p s, .search none p (.ok s) ∈ r.1.1.trace ∧ s.objective = f)

theorem Calm.mem {a : Act n} (h : Calm a) {e : Event n} {m : M n} (he : e ∈ m.trace) : e ∈ (a m).1.trace := by
  obtain ⟨_, _, es, ht, _⟩ := h m
  rw [ht]
  exact List.mem_append_left _ he

theorem VAct.seq_go {a b : VAct n} {t t' : Talk n} (h : a t = (t', .cont)) : (a ;;; b) t = b t' := by
  unfold VAct.seq
  rw [h, if_pos rfl]

theorem stage1Local_opens (env : Env n) (p : Pt n) (ref : List (Pt n)) (t : Talk n) :
    SameCfg t.1.opt (VAct.stage1Local env p ref t).1.1.opt ∧ Opens t (VAct.stage1Local env p ref t) := by
  unfold VAct.stage1Local
  split
  · exact ⟨SameCfg.refl _, .failed ⟨_, rfl⟩ rfl⟩
  · rename_i s e _
    generalize hev : (Event.search none p (.ok s) : Event n) = ev
    generalize hm0 : ({ t.1 with trace := t.1.trace ++ [ev] } : M n) = m0
    have k0 : ev ∈ m0.trace := by rw [← hm0]; exact List.mem_append_right _ (List.mem_singleton.2 rfl)
    have c0 : m0.opt = t.1.opt := by rw [← hm0]
    have a1 : Calm (Act.setThreshold (n := n) s.objective) := Calm.setThreshold _
    have a2 := Calm.obsLocal1 env s (if t.1.opt.tracks1 then e else 0)
    have s1 := (Steps.setThreshold env s.objective m0).cfg
    generalize hm1 : (Act.setThreshold s.objective m0).1 = m1 at s1
    have k1 : ev ∈ m1.trace := hm1 ▸ a1.mem k0
    have s2 : SameCfg m1.opt (Act.obsLocal1 env s (if t.1.opt.tracks1 then e else 0) m1).1.opt := by
      unfold Act.obsLocal1
      exact ((Steps.obs).seq (Steps.invoke env 6) m1).cfg
    have d2 : (Act.obsLocal1 env s (if t.1.opt.tracks1 then e else 0) m1).2 = .cont := invoke_cont env _ _
    generalize hm2 : (Act.obsLocal1 env s (if t.1.opt.tracks1 then e else 0) m1).1 = m2 at s2
    have k2 : ev ∈ m2.trace := hm2 ▸ a2.mem k1
    have hstart : (VAct.quiet (Act.setThreshold s.objective) ;;; VAct.say [.local1 s.objective] ;;;
        VAct.quiet (Act.obsLocal1 env s (if t.1.opt.tracks1 then e else 0)) ;;;
        VAct.process s fun _ => fun t' =>
          if t'.1.opt.targetReached then
            (VAct.say [.target1 t'.1.opt.targetShown] ;;; VAct.quiet (Act.obsEnd1 env) ;;;
              VAct.quiet fun m => (m, .stop)) t'
          else (VAct.quiet (Act.storeRef ref) ;;; VAct.quiet (Act.obsEnd1 env)) t') (m0, t.2) =
        VAct.process s (fun _ => fun t' =>
          if t'.1.opt.targetReached then
            (VAct.say [.target1 t'.1.opt.targetShown] ;;; VAct.quiet (Act.obsEnd1 env) ;;;
              VAct.quiet fun m => (m, .stop)) t'
          else (VAct.quiet (Act.storeRef ref) ;;; VAct.quiet (Act.obsEnd1 env)) t')
          (m2, t.2 ++ [.local1 s.objective]) := by
      unfold VAct.seq
      rw [if_pos (show (VAct.quiet (Act.setThreshold s.objective) (m0, t.2)).2 = .cont from rfl),
        if_pos (show (VAct.say [VLine.local1 s.objective] (VAct.quiet (Act.setThreshold s.objective) (m0, t.2)).1).2 =
          .cont from rfl)]
      have e1 : (VAct.say [VLine.local1 s.objective] (VAct.quiet (Act.setThreshold s.objective) (m0, t.2)).1).1 =
        (m1, t.2 ++ [.local1 s.objective]) := by rw [← hm1]; rfl
      rw [e1]
      have e2 : VAct.quiet (Act.obsLocal1 env s (if t.1.opt.tracks1 then e else 0))
          (m1, t.2 ++ [.local1 s.objective]) = ((m2, t.2 ++ [.local1 s.objective]), .cont) := by
        rw [← hm2, ← d2]; rfl
      rw [e2]
      rfl
    rw [hstart]
    have sc : SameCfg t.1.opt (m2.opt.process s).1 := (c0 ▸ s1).trans (s2.trans (Opt.process_cfg m2.opt s))
    have hf : ((t.2 ++ [VLine.local1 s.objective]) ++ (processLines m2.opt.solset s (m2.opt.process s).2).map
        VLine.base).filter VLine.course = t.2.filter VLine.course ++ [.local1 s.objective] := by
      rw [List.filter_append, course_base, List.append_nil, List.filter_append]; rfl
    unfold VAct.process
    dsimp only
    split
    · exact ⟨sc, .stuck ⟨_, rfl⟩ hf ⟨p, s, by rw [hev]; exact List.mem_append_left _ k2, rfl⟩⟩
    · split
      · rename_i hr
        generalize hm3 : (⟨(m2.opt.process s).1, m2.uc, m2.saves, m2.trace ++ [.processed s (m2.opt.process s).2]⟩ :
          M n) = m3
        have k3 : ev ∈ m3.trace := by rw [← hm3]; exact List.mem_append_left _ k2
        have sc3 : SameCfg t.1.opt m3.opt := by rw [← hm3]; exact sc
        have hr : m3.opt.targetReached = true := by rw [← hm3]; exact hr
        have hsh : (m2.opt.process s).1.targetShown = t.1.opt.targetShown := shown_same sc
        rw [VAct.seq_go (a := VAct.say _) rfl, VAct.seq_go (a := VAct.quiet (Act.obsEnd1 env))
          (show VAct.quiet (Act.obsEnd1 env) _ = (((Act.obsEnd1 env m3).1, _), .cont) by
            rw [← obsEnd1_cont env m3]; rfl)]
        have se : SameCfg m3.opt (Act.obsEnd1 env m3).1.opt := by
          unfold Act.obsEnd1
          exact ((Steps.obs).seq ((Steps.invoke env 7).seq Steps.obs) m3).cfg
        refine ⟨sc3.trans se, .target rfl ((reached_same se ((Calm.obsEnd1 env) m3).2.1).trans hr) ?_
          ⟨p, s, by rw [hev]; exact (Calm.obsEnd1 env).mem k3, rfl⟩⟩
        show (_ ++ [_]).filter _ = _
        rw [List.filter_append, hf, hsh, List.append_assoc]
        rfl
      · rename_i hr
        generalize hm3 : (⟨(m2.opt.process s).1, m2.uc, m2.saves, m2.trace ++ [.processed s (m2.opt.process s).2]⟩ :
          M n) = m3
        have k3 : ev ∈ m3.trace := by rw [← hm3]; exact List.mem_append_left _ k2
        have sc3 : SameCfg t.1.opt m3.opt := by rw [← hm3]; exact sc
        have hr : m3.opt.targetReached = false := by rw [← hm3]; simpa using hr
        rw [VAct.seq_go (a := VAct.quiet (Act.storeRef ref)) rfl]
        have ss : SameCfg m3.opt (Act.storeRef ref m3).1.opt :=
          ⟨rfl, rfl, rfl, rfl, rfl, rfl, rfl, rfl, rfl, rfl, rfl, rfl, rfl, rfl⟩
        have se : SameCfg (Act.storeRef ref m3).1.opt (Act.obsEnd1 env (Act.storeRef ref m3).1).1.opt := by
          unfold Act.obsEnd1
          exact ((Steps.obs).seq ((Steps.invoke env 7).seq Steps.obs) _).cfg
        exact ⟨sc3.trans (ss.trans se), .on (obsEnd1_cont env _)
          ((reached_same (ss.trans se) ((Calm.obsEnd1 env) _).2.1).trans hr) hf
          ⟨p, s, by rw [hev]; exact (Calm.obsEnd1 env).mem ((Calm.storeRef ref).mem k3), rfl⟩⟩

end GS
