/- Printing changes nothing: the machine with output does what the machine without output does. -/
import Verif.Model.Transcript

namespace GS
variable {n : Nat}

/-- `a` with its output removed is `b`. Used in proofs only; no counterpart in /repo. -/
def Over (a : VAct n) (b : Act n) : Prop := ∀ t, (a t).1.1 = (b t.1).1 ∧ (a t).2 = (b t.1).2

theorem Over.quiet (a : Act n) : Over (VAct.quiet a) a := fun _ => ⟨rfl, rfl⟩

theorem Over.seq {a b : VAct n} {a' b' : Act n} (ha : Over a a') (hb : Over b b') : Over (a ;;; b) (a' ;; b') := by
  intro t
  rw [Act.seq_def]
  unfold VAct.seq
  rw [(ha t).2]
  by_cases hc : (a' t.1).2 = .cont
  · rw [if_pos hc, if_pos hc, ← (ha t).1]; exact hb _
  · rw [if_neg hc, if_neg hc]; exact ha t

theorem Over.say {l : List (VLine n)} {a : VAct n} {a' : Act n} (h : Over a a') : Over (VAct.say l ;;; a) a' := by
  intro t
  exact h _

theorem Over.ite {c : Prop} [Decidable c] {a b : VAct n} {a' b' : Act n} (ha : Over a a') (hb : Over b b') :
    Over (if c then a else b) (if c then a' else b') := by
  split <;> assumption

theorem Over.all {α : Type} {l : List α} {f : α → VAct n} {g : α → Act n} (h : ∀ a ∈ l, Over (f a) (g a)) :
    Over (VAct.all (l.map f)) (Act.all (l.map g)) := by
  induction l with
  | nil => exact Over.quiet _
  | cons a l ih => exact (h a (by simp)).seq (ih fun x hx => h x (by simp [hx]))

theorem Over.process (s : Sol n) {k : Verdict → VAct n} {k' : Verdict → Act n} (h : ∀ v, Over (k v) (k' v)) :
    Over (VAct.process s k) (Act.process s k') := by
  intro t
  unfold VAct.process Act.process
  dsimp only
  split
  · exact ⟨rfl, rfl⟩
  · exact h _ _

theorem Over.stopIfTarget (i : Nat) : Over (VAct.stopIfTarget (n := n) i) Act.stopIfTarget := by
  intro t
  unfold VAct.stopIfTarget Act.stopIfTarget
  dsimp only
  split <;> exact ⟨rfl, rfl⟩

theorem Over.reject (i : Nat) : Over (VAct.reject (n := n) i) (Act.reject i) := by
  intro t
  unfold VAct.reject
  split
  · rename_i h
    refine ⟨rfl, ?_⟩
    unfold Act.reject
    rw [if_pos h]
  · exact ⟨rfl, rfl⟩

theorem writeCkpt_out (env : Env n) (m : M n) (h : env.io m.saves = none) : (Act.writeCkpt env m).2 = .cont := by
  unfold Act.writeCkpt; dsimp only; rw [h]

theorem Over.writeCkpt (env : Env n) : Over (VAct.writeCkpt env) (Act.writeCkpt env) := by
  intro t
  unfold VAct.writeCkpt
  split
  · exact ⟨rfl, rfl⟩
  · rename_i h
    have := writeCkpt_out env t.1 h
    unfold VAct.seq
    rw [show (VAct.quiet (Act.writeCkpt env) t).2 = .cont from this, if_pos rfl]
    exact ⟨rfl, this.symm⟩

theorem Over.save (env : Env n) : Over (VAct.save env) (Act.save env) := by
  intro t
  unfold VAct.save Act.save
  cases t.1.opt.ckpt with
  | none => exact ⟨rfl, rfl⟩
  | some cfg =>
    dsimp only
    split
    · exact ⟨rfl, rfl⟩
    · split
      · exact Over.writeCkpt env t
      · exact ⟨rfl, rfl⟩

theorem Over.saveFinal (env : Env n) : Over (VAct.saveFinal env) (Act.saveFinal env) := by
  intro t
  unfold VAct.saveFinal Act.saveFinal
  cases t.1.opt.ckpt with
  | none => exact ⟨rfl, rfl⟩
  | some cfg => exact Over.writeCkpt env t

theorem Over.search (env : Env n) (ty : SolverType) (cfg : SolverConfig) (i : Option Nat) (p : Pt n)
    {k : Sol n → Nat → VAct n} {k' : Sol n → Nat → Act n} (h : ∀ s e, Over (k s e) (k' s e)) :
    Over (VAct.search env ty cfg i p k) (Act.search env ty cfg i p k') := by
  intro t
  unfold VAct.search Act.search
  cases env.solve ty cfg p with
  | error e => exact ⟨rfl, rfl⟩
  | ok r => exact h _ _ _

theorem Over.getMerit (objs : Option (List F64)) (i : Nat) (p : Pt n) {k : F64 → VAct n} {k' : F64 → Act n}
    (h : ∀ v, Over (k v) (k' v)) : Over (VAct.getMerit objs i p k) (Act.getMerit objs i p k') := by
  intro t
  unfold VAct.getMerit Act.getMerit
  dsimp only
  cases Act.meritValue t.1.opt objs i p with
  | error e => exact ⟨rfl, rfl⟩
  | ok v => exact (Over.quiet _).seq (h _) _

theorem Over.localSeq (env : Env n) (i : Nat) (p : Pt n) (v : F64) :
    Over (VAct.localSeq env i p v) (Act.localSeq env i p v) := by
  intro t
  exact (Over.quiet _).seq (Over.search env _ _ _ _ fun s e => Over.process s fun v =>
    (Over.quiet _).seq (Over.say (Over.stopIfTarget _))) t

theorem Over.stepSeq (env : Env n) (r : Bool) (st : Nat) (objs : Option (List F64)) (it : Nat × Pt n) :
    Over (VAct.stepSeq env r st objs it) (Act.stepSeq env r st objs it) := by
  unfold VAct.stepSeq Act.stepSeq
  refine Over.ite (Over.quiet _) ((Over.quiet _).seq ((Over.quiet _).seq (Over.getMerit _ _ _ fun v => ?_)))
  intro t
  exact (Over.quiet _).seq ((Over.ite (Over.localSeq env _ _ _) (Over.reject _)).seq
    ((Over.quiet _).seq (Over.save env))) t

theorem Over.quickPar (env : Env n) (i : Nat) : Over (VAct.quickPar env i) (Act.quickPar env i) :=
  (Over.quiet _).seq ((Over.reject _).seq ((Over.quiet _).seq ((Over.quiet _).seq (Over.save env))))

theorem Over.resultPar (env : Env n) (i : Nat) (v : F64) (s : Sol n) (e : Nat) :
    Over (VAct.resultPar env i v s e) (Act.resultPar env i v s e) :=
  (Over.quiet _).seq ((Over.quiet _).seq (Over.process s fun _ => (Over.quiet _).seq (Over.say
    ((Over.quiet _).seq ((Over.quiet _).seq ((Over.stopIfTarget _).seq (Over.save env)))))))

theorem Over.singlePar (env : Env n) (i : Nat) (p : Pt n) (v : F64) :
    Over (VAct.singlePar env i p v) (Act.singlePar env i p v) := by
  intro t
  exact (Over.quiet _).seq ((Over.quiet _).seq (Over.search env _ _ _ _ fun s e => Over.process s fun _ =>
    (Over.quiet _).seq ((Over.quiet _).seq ((Over.quiet _).seq (Over.say
      ((Over.stopIfTarget _).seq (Over.save env))))))) t

theorem Over.groupPar (env : Env n) (k : Nat) (c : List (Nat × Pt n × F64)) :
    Over (VAct.groupPar env k c) (Act.groupPar env k c) := by
  intro t
  unfold VAct.groupPar Act.groupPar
  cases Act.parCollect (Act.solveTask env t.1.opt) c (env.solveOrder k) with
  | error e => exact ⟨rfl, rfl⟩
  | ok rs => exact Over.all (fun r _ => Over.resultPar env _ _ _ _) _

theorem Over.localsPar (env : Env n) (k : Nat) (c : List (Nat × Pt n × F64)) :
    Over (VAct.localsPar env k c) (Act.localsPar env k c) := by
  intro t
  unfold VAct.localsPar Act.localsPar
  split
  · exact Over.groupPar env k c t
  · exact Over.all (fun r _ => Over.singlePar env _ _ _) _

theorem Over.afterEval (env : Env n) (objs : Option (List F64)) (k : Nat) (vals : List (Nat × Pt n × F64)) :
    Over (VAct.afterEval env objs k vals) (Act.afterEval env objs k vals) := by
  intro t
  exact (Over.quiet _).seq ((Over.all fun c _ => Over.quickPar env c.1).seq (Over.localsPar env _ _)) _

theorem Over.procBatch (env : Env n) (r : Bool) (st : Nat) (objs : Option (List F64)) (eff : Nat)
    (its : List (Nat × Pt n)) : Over (VAct.procBatch env r st objs eff its) (Act.procBatch env r st objs eff its) := by
  unfold VAct.procBatch Act.procBatch
  refine Over.ite ?_ (Over.all fun i _ => Over.stepSeq env r st objs i)
  unfold VAct.batchPar Act.batchPar
  generalize (if r = true then _ else _ : List (Nat × Pt n)) = l
  cases l with
  | nil => exact Over.quiet _
  | cons it l =>
    intro t
    unfold VAct.batchParItems Act.batchParItems
    dsimp only
    cases Act.parCollect (Act.evalTask t.1.opt objs) (it :: l) (env.evalOrder it.1) with
    | error e => exact ⟨rfl, rfl⟩
    | ok vals => exact Over.afterEval env objs _ _ _

theorem Over.loop (env : Env n) (r : Bool) (st : Nat) (objs : Option (List F64)) (eff k : Nat)
    (bs : List (List (Nat × Pt n))) : Over (VAct.loop env r st objs eff k bs) (Act.loop env r st objs eff k bs) := by
  induction bs generalizing k with
  | nil => exact Over.quiet _
  | cons b bs ih =>
    intro t
    unfold VAct.loop Act.loop
    by_cases hto : Act.timedOut env t.1.opt k = true
    · rw [if_pos hto, if_pos hto]; exact ⟨rfl, rfl⟩
    · rw [if_neg hto, if_neg hto]
      have h := Over.procBatch env r st objs eff b t
      cases hr : VAct.procBatch env r st objs eff b t with
      | mk t' out =>
        cases hr' : Act.procBatch env r st objs eff b t.1 with
        | mk m' out' =>
          rw [hr, hr'] at h
          obtain ⟨h1, h2⟩ := h
          dsimp only at h1 h2
          subst h1 h2
          cases out with
          | fail e => exact ⟨rfl, rfl⟩
          | cont =>
            dsimp only
            split
            · exact ⟨rfl, rfl⟩
            · exact ih _ _
          | stop =>
            dsimp only
            split
            · exact ⟨rfl, rfl⟩
            · exact ih _ _

theorem Over.stage2Main (env : Env n) (r : Bool) (st : Nat) (ref : List (Pt n)) (objs : Option (List F64)) :
    Over (VAct.stage2Main env r st ref objs) (Act.stage2Main env r st ref objs) := by
  intro t
  unfold VAct.stage2Main Act.stage2Main
  split
  · exact ⟨rfl, rfl⟩
  · exact (Over.loop env _ _ _ _ _ _).seq ((Over.quiet _).seq (Over.saveFinal env)) t

theorem Over.stage2 (env : Env n) (r : Bool) (ref : List (Pt n)) (objs : Option (List F64)) :
    Over (VAct.stage2 env r ref objs) (Act.stage2 env r ref objs) := by
  refine Over.say ((Over.quiet _).seq fun t => ?_)
  split
  · exact Over.stage2Main env _ _ _ _ t
  · cases Opt.shuffleSeed env t.1.opt.params.seed t.1.opt.curIter with
    | none => exact ⟨rfl, rfl⟩
    | some sd => exact (Over.quiet _).seq (Over.stage2Main env _ _ _ _) t

theorem Over.stage1Local (env : Env n) (p : Pt n) (ref : List (Pt n)) :
    Over (VAct.stage1Local env p ref) (Act.stage1Local env p ref) := by
  intro t
  unfold VAct.stage1Local Act.stage1Local
  cases env.solve t.1.opt.lsType t.1.opt.lsConfig p with
  | error e => exact ⟨rfl, rfl⟩
  | ok r =>
    refine (Over.quiet _).seq (Over.say ((Over.quiet _).seq (Over.process _ fun _ t' => ?_))) _
    split
    · exact Over.say ((Over.quiet _).seq (Over.quiet _)) t'
    · exact (Over.quiet _).seq (Over.quiet _) t'

theorem Over.body (env : Env n) (r : Bool) : Over (VAct.body env r) (Act.body env r) := by
  intro t
  unfold VAct.body Act.body
  split
  · exact Over.say (Over.stage2 env _ _ _) _
  · refine Over.say (a' := Act.stage1 env _) (fun t => ?_) t
    unfold Act.stage1
    dsimp only
    cases Act.scatter env t.1.opt with
    | error e => exact ⟨rfl, rfl⟩
    | ok r => exact (Over.quiet _).seq ((Over.quiet _).seq ((Over.quiet _).seq ((Over.stage1Local env _ _).seq
        ((Over.quiet _).seq (Over.stage2 env _ _ _))))) t

/-- Printing changes nothing. -/
theorem runV_fst (env : Env n) (o : Opt n) (loaded : Option (Except CkErr (Ckpt n))) :
    (runV env o loaded).1 = run env o loaded := by
  unfold runV run
  dsimp only
  cases (Act.obsStart env ⟨o, 0, 0, []⟩).1.opt.tryResume loaded with
  | error e => rfl
  | ok q =>
    obtain ⟨o1, r⟩ := q
    obtain ⟨h1, h2⟩ := Over.body env r ({ (Act.obsStart env ⟨o, 0, 0, []⟩).1 with opt := o1 },
      if r then [.resumed o1.curIter (o1.solset.getD []).length] else [])
    dsimp only at h1 h2 ⊢
    rw [h1, h2]
    rfl

/-- The output of a run that does not resume. -/
theorem runV_fresh (env : Env n) (o : Opt n) (loaded : Option (Except CkErr (Ckpt n))) (h : Fresh o loaded) :
    runV env o loaded = (finish ((VAct.body env false (⟨started env o, 0, 0, []⟩, [])).1.1,
      (VAct.body env false (⟨started env o, 0, 0, []⟩, [])).2),
      (VAct.body env false (⟨started env o, 0, 0, []⟩, [])).1.2) := by
  unfold runV
  have h1 : (Act.obsStart env ⟨o, 0, 0, []⟩).1 = (⟨started env o, 0, 0, []⟩ : M n) := rfl
  dsimp only
  rw [h1]
  have h2 : (started env o).tryResume loaded = .ok (started env o, false) := by
    unfold Opt.tryResume
    have hc : (started env o).ckpt = o.ckpt := rfl
    rw [hc]
    rcases h with rfl | h
    · cases o.ckpt with
      | none => rfl
      | some c => dsimp only; split <;> rfl
    · cases ho : o.ckpt with
      | none => rfl
      | some c => dsimp only; rw [h c ho]; rfl
  rw [h2]
  rfl

/-- The output of a run that resumes. -/
theorem runV_resumes (env : Env n) (o : Opt n) (loaded : Option (Except CkErr (Ckpt n))) {c : Ckpt n}
    (h : Resumes o loaded c) :
    let r := VAct.body env true (⟨(started env o).restore c, 0, 0, []⟩,
      [.resumed c.currentIteration (c.solutionSet.getD []).length])
    runV env o loaded = (finish (r.1.1, r.2), r.1.2) := by
  unfold runV
  have h1 : (Act.obsStart env ⟨o, 0, 0, []⟩).1 = (⟨started env o, 0, 0, []⟩ : M n) := rfl
  dsimp only
  rw [h1]
  obtain ⟨rfl, cfg, hc, ha⟩ := h
  have h2 : (started env o).tryResume (some (.ok c)) = .ok ((started env o).restore c, true) := by
    unfold Opt.tryResume
    rw [show (started env o).ckpt = o.ckpt from rfl, hc]
    dsimp only
    rw [ha]; rfl
  rw [h2]
  rfl

/-! ### What the lines say -/

/-- A line without its threshold values. Used in proofs and statements; no counterpart in /repo. -/
def Line.plain : Line n → Line n
  | .adjusting it _ _ => .adjusting it F64.zero F64.zero
  | l => l

/-- The lines about solution set, threshold and checkpoints. Used in proofs and statements; no counterpart in /repo. -/
def VLine.base? : VLine n → Option (Line n)
  | .base l => some l
  | _ => none

/-- A solution announced as added. Used in proofs and statements; no counterpart in /repo. -/
def VLine.announced? : VLine n → Option (Sol n)
  | .addedLocal _ f q => some ⟨q, f⟩
  | _ => none

/-- A solution that `process_local_solution` reported as added. Used in proofs and statements; no counterpart in
/repo. -/
def Event.accepted? : Event n → Option (Sol n)
  | .processed s v => if v.returned then some s else none
  | _ => none

/-- What the output so far says, with solutions `pend` accepted but not yet announced. Used in proofs only; no
counterpart in /repo. -/
structure Relates (set0 : Option (List (Sol n))) (acc0 : List (Sol n)) (par : Params) (known : List (Event n))
    (pend : List (Sol n)) (t : Talk n) : Prop where
  params : t.1.opt.params = par
  set : t.1.opt.solset = t.1.trace.foldl storeStep set0
  lines : ∀ b, (t.2.filterMap VLine.base?).map Line.plain = (printedFrom set0 b t.1.trace).map Line.plain
  adj : ∀ it old new, .base (.adjusting it old new) ∈ t.2 → new = printedThreshold old ∧
    .relaxed it (Opt.relaxed par.thresholdFactor old) ∈ t.1.trace
  acc : t.1.trace.filterMap Event.accepted? = acc0 ++ t.2.filterMap VLine.announced? ++ pend
  src : ∀ it f q, .addedLocal it f q ∈ t.2 → ∃ p, .search (some it) p (.ok ⟨q, f⟩) ∈ t.1.trace
  known : ∀ e ∈ known, e ∈ t.1.trace

/-- Events that go with no line. Used in proofs only; no counterpart in /repo. -/
def Event.mute : Event n → Bool
  | .processed .. | .relaxed .. | .saved .. => false
  | _ => true

theorem plain_event (set : Option (List (Sol n))) (x y : F64) (e : Event n) :
    (eventLines set x e).map Line.plain = (eventLines set y e).map Line.plain := by
  cases e <;> rfl

theorem printedFrom_app (set : Option (List (Sol n))) (b : F64 × List F64) (a c : List (Event n)) :
    printedFrom set b (a ++ c) =
      printedFrom set b a ++ printedFrom (a.foldl storeStep set) (a.foldl bookStep b) c := by
  induction a generalizing set b with
  | nil => rfl
  | cons e l ih =>
    show eventLines set b.1 e ++ printedFrom _ _ (l ++ c) = eventLines set b.1 e ++ _ ++ _
    rw [ih, List.append_assoc]
    rfl

theorem silent_store {set : Option (List (Sol n))} {e : Event n} (h : e.mute = true) : storeStep set e = set := by
  cases e <;> first | rfl | cases h

theorem silent_lines {set : Option (List (Sol n))} {x : F64} {e : Event n} (h : e.mute = true) :
    eventLines set x e = [] := by
  cases e <;> first | rfl | cases h

theorem silent_accepted {e : Event n} (h : e.mute = true) : e.accepted? = none := by
  cases e <;> first | rfl | cases h

theorem silent_printed {set : Option (List (Sol n))} {b : F64 × List F64} {es : List (Event n)}
    (h : ∀ e ∈ es, e.mute = true) : printedFrom set b es = [] := by
  induction es generalizing b with
  | nil => rfl
  | cons e l ih =>
    show eventLines set b.1 e ++ printedFrom (storeStep set e) _ l = []
    rw [silent_lines (h e (by simp)), silent_store (h e (by simp)), ih fun x hx => h x (by simp [hx])]
    rfl

/-- Adding silent events, with the solution set and the parameters unchanged, keeps everything. -/
theorem Relates.silent {set0 : Option (List (Sol n))} {acc0 : List (Sol n)} {par : Params} {known : List (Event n)}
    {pend : List (Sol n)} {t : Talk n} (h : Relates set0 acc0 par known pend t) {m : M n} {es : List (Event n)}
    (hp : m.opt.params = t.1.opt.params) (hs : m.opt.solset = t.1.opt.solset) (ht : m.trace = t.1.trace ++ es)
    (he : ∀ e ∈ es, e.mute = true) : Relates set0 acc0 par known pend (m, t.2) where
  params := hp.trans h.params
  set := by
    show m.opt.solset = m.trace.foldl storeStep set0
    rw [hs, h.set, ht, List.foldl_append]
    generalize t.1.trace.foldl storeStep set0 = x
    clear ht
    induction es with
    | nil => rfl
    | cons e l ih =>
      rw [List.foldl_cons, silent_store (he e (by simp))]
      exact ih fun y hy => he y (by simp [hy])
  lines := by
    intro b
    show _ = (printedFrom set0 b m.trace).map Line.plain
    rw [ht, printedFrom_app, silent_printed he, List.append_nil]
    exact h.lines b
  adj := fun it old new hx => ⟨(h.adj it old new hx).1, by
    show _ ∈ m.trace
    rw [ht]; exact List.mem_append_left _ (h.adj it old new hx).2⟩
  acc := by
    show m.trace.filterMap _ = _
    rw [ht, List.filterMap_append, List.filterMap_eq_nil_iff.2 fun e hx => silent_accepted (he e hx), List.append_nil]
    exact h.acc
  src := fun it f q hx => by
    obtain ⟨p, hp⟩ := h.src it f q hx
    exact ⟨p, by show _ ∈ m.trace; rw [ht]; exact List.mem_append_left _ hp⟩
  known := fun e hx => by show e ∈ m.trace; rw [ht]; exact List.mem_append_left _ (h.known e hx)

/-- Saying lines of other kinds keeps everything. -/
theorem Relates.says {set0 : Option (List (Sol n))} {acc0 : List (Sol n)} {par : Params} {known : List (Event n)}
    {pend : List (Sol n)} {t : Talk n} (h : Relates set0 acc0 par known pend t) {l : List (VLine n)}
    (h1 : ∀ x ∈ l, x.base? = none) (h2 : ∀ x ∈ l, x.announced? = none) :
    Relates set0 acc0 par known pend (t.1, t.2 ++ l) where
  params := h.params
  set := h.set
  lines := fun b => by
    show ((t.2 ++ l).filterMap _).map _ = _
    rw [List.filterMap_append, List.filterMap_eq_nil_iff.2 h1, List.append_nil]
    exact h.lines b
  adj := fun it old new hx => by
    rcases List.mem_append.1 hx with hx | hx
    · exact h.adj it old new hx
    · cases h1 _ hx
  acc := by
    show _ = acc0 ++ (t.2 ++ l).filterMap _ ++ pend
    rw [List.filterMap_append, List.filterMap_eq_nil_iff.2 h2, List.append_nil]
    exact h.acc
  src := fun it f q hx => by
    rcases List.mem_append.1 hx with hx | hx
    · exact h.src it f q hx
    · cases h2 _ hx
  known := h.known

/-- The action keeps solution set and parameters and records silent events only. Used in proofs only; no counterpart
in /repo. -/
def Calm (a : Act n) : Prop := ∀ m, (a m).1.opt.params = m.opt.params ∧ (a m).1.opt.solset = m.opt.solset ∧
  ∃ es, (a m).1.trace = m.trace ++ es ∧ ∀ e ∈ es, e.mute = true

theorem Calm.seq {a b : Act n} (ha : Calm a) (hb : Calm b) : Calm (a ;; b) := by
  intro m
  rw [Act.seq_def]
  split
  · obtain ⟨p1, s1, es1, t1, e1⟩ := ha m
    obtain ⟨p2, s2, es2, t2, e2⟩ := hb (a m).1
    refine ⟨p2.trans p1, s2.trans s1, es1 ++ es2, by rw [t2, t1, List.append_assoc], fun e he => ?_⟩
    rcases List.mem_append.1 he with he | he
    · exact e1 e he
    · exact e2 e he
  · exact ha m

theorem Calm.same {a : Act n} (h : ∀ m, (a m).1.opt.params = m.opt.params ∧ (a m).1.opt.solset = m.opt.solset ∧
    (a m).1.trace = m.trace) : Calm a := fun m =>
  ⟨(h m).1, (h m).2.1, [], by rw [(h m).2.2, List.append_nil], fun e he => by cases he⟩

theorem Calm.skip : Calm (Act.skip : Act n) := Calm.same fun _ => ⟨rfl, rfl, rfl⟩
theorem Calm.obsIter (i : Nat) : Calm (Act.obsIter (n := n) i) := Calm.same fun _ => ⟨rfl, rfl, rfl⟩
theorem Calm.obsEvals (i : Nat) : Calm (Act.obsEvals (n := n) i) := Calm.same fun _ => ⟨rfl, rfl, rfl⟩
theorem Calm.setThreshold (v : F64) : Calm (Act.setThreshold (n := n) v) := Calm.same fun _ => ⟨rfl, rfl, rfl⟩
theorem Calm.setSeed (s : Nat) : Calm (Act.setSeed (n := n) s) := Calm.same fun _ => ⟨rfl, rfl, rfl⟩
theorem Calm.obsLocal (b : Bool) (k : Nat) : Calm (Act.obsLocal (n := n) b k) := Calm.same fun _ => ⟨rfl, rfl, rfl⟩
theorem Calm.obsStart2 (env : Env n) : Calm (Act.obsStart2 env) := Calm.same fun _ => ⟨rfl, rfl, rfl⟩
theorem Calm.obsEnd2 (env : Env n) : Calm (Act.obsEnd2 env) := Calm.same fun _ => ⟨rfl, rfl, rfl⟩
theorem Calm.storeRef (r : List (Pt n)) : Calm (Act.storeRef r) := Calm.same fun _ => ⟨rfl, rfl, rfl⟩
theorem Calm.log {e : Event n} (h : e.mute = true) : Calm (Act.log e) := fun m =>
  ⟨rfl, rfl, [e], rfl, fun x hx => by rw [List.mem_singleton.1 hx]; exact h⟩

theorem Calm.mapObs (f : Obs n → Obs n) : Calm (Act.modify fun o : Opt n => o.mapObs f) :=
  Calm.same fun _ => ⟨rfl, rfl, rfl⟩

theorem Calm.beginIter (env : Env n) (i : Nat) : Calm (Act.beginIter env i) := Calm.same fun m => by
  unfold Act.beginIter
  dsimp only
  split <;> exact ⟨rfl, rfl, rfl⟩

theorem Calm.invoke (env : Env n) (k : Nat) : Calm (Act.invoke env k) := by
  intro m
  unfold Act.invoke
  split
  · exact Calm.skip m
  · dsimp only
    split
    · exact ⟨rfl, rfl, _, rfl, fun x hx => by rw [List.mem_singleton.1 hx]; rfl⟩
    · exact ⟨rfl, rfl, [], (List.append_nil _).symm, fun e he => by cases he⟩

theorem Calm.callback (env : Env n) (k : Nat) : Calm (Act.callback env k) := by
  intro m
  unfold Act.callback
  split
  · exact Calm.skip m
  · split
    · exact Calm.skip m
    · exact Calm.invoke env _ m
    · exact Calm.skip m

theorem Calm.obsLocal1 (env : Env n) (s : Sol n) (k : Nat) : Calm (Act.obsLocal1 env s k) :=
  (Calm.mapObs _).seq (Calm.invoke env _)

theorem Calm.obsEnd1 (env : Env n) : Calm (Act.obsEnd1 env) :=
  (Calm.mapObs _).seq ((Calm.invoke env _).seq (Calm.mapObs _))

theorem Calm.obsScatter (env : Env n) (r : Scatter.Result n) : Calm (Act.obsScatter env r) :=
  (Calm.mapObs _).seq ((Calm.invoke env _).seq ((Calm.mapObs _).seq ((Calm.invoke env _).seq ((Calm.mapObs _).seq
    (Calm.invoke env _)))))

theorem Calm.obsScatterDone (env : Env n) (r : List (Pt n)) (v : List F64) : Calm (Act.obsScatterDone env r v) :=
  (Calm.mapObs _).seq ((Calm.invoke env _).seq (Calm.mapObs _))

theorem Relates.quiet {set0 : Option (List (Sol n))} {acc0 : List (Sol n)} {par : Params} {known : List (Event n)}
    {pend : List (Sol n)} {t : Talk n} (h : Relates set0 acc0 par known pend t) {a : Act n} (ha : Calm a) :
    Relates set0 acc0 par known pend (VAct.quiet a t).1 := by
  obtain ⟨h1, h2, es, h3, h4⟩ := ha t.1
  exact h.silent h1 h2 h3 h4

end GS
