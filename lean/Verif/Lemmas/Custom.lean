/- Stage 2 never reads the custom starting points. -/
import Verif.Lemmas.Built

namespace GS
variable {n : Nat}

/-- The state with other custom points. Used in proofs only; no counterpart in /repo. -/
def M.setC (x : Option (List (Pt n))) (m : M n) : M n := { m with opt := { m.opt with custom := x } }

/-- The action neither reads nor writes the custom points. Used in proofs only; no counterpart in /repo. -/
def NoC (a : Act n) : Prop := ∀ x m, a (M.setC x m) = (M.setC x (a m).1, (a m).2)

theorem NoC.seq {a b : Act n} (ha : NoC a) (hb : NoC b) : NoC (a ;; b) := by
  intro x m
  rw [Act.seq_def, Act.seq_def, ha x m]
  dsimp only
  by_cases hc : (a m).2 = .cont
  · rw [if_pos hc, if_pos hc]; exact hb _ _
  · rw [if_neg hc, if_neg hc]

theorem NoC.skip : NoC (Act.skip : Act n) := fun _ _ => rfl

theorem NoC.ite {c : Prop} [Decidable c] {a b : Act n} (ha : NoC a) (hb : NoC b) : NoC (if c then a else b) := by
  split <;> assumption

theorem NoC.all {l : List (Act n)} (h : ∀ a ∈ l, NoC a) : NoC (Act.all l) := by
  induction l with
  | nil => exact NoC.skip
  | cons a l ih => exact (h a (by simp)).seq (ih fun x hx => h x (by simp [hx]))

theorem NoC.beginIter (env : Env n) (i : Nat) : NoC (Act.beginIter env i) := by
  intro x m
  unfold Act.beginIter
  dsimp only
  rw [show (M.setC x m).opt.params = m.opt.params from rfl]
  split <;> rfl

theorem NoC.obsIter (i : Nat) : NoC (Act.obsIter (n := n) i) := fun _ _ => rfl
theorem NoC.obsEvals (i : Nat) : NoC (Act.obsEvals (n := n) i) := fun _ _ => rfl
theorem NoC.setThreshold (v : F64) : NoC (Act.setThreshold (n := n) v) := fun _ _ => rfl
theorem NoC.setSeed (s : Nat) : NoC (Act.setSeed (n := n) s) := fun _ _ => rfl
theorem NoC.log (e : Event n) : NoC (Act.log e) := fun _ _ => rfl
theorem NoC.obsLocal (b : Bool) (k : Nat) : NoC (Act.obsLocal (n := n) b k) := fun _ _ => rfl
theorem NoC.stopIfTarget : NoC (Act.stopIfTarget (n := n)) := fun _ _ => rfl
theorem NoC.obsStart2 (env : Env n) : NoC (Act.obsStart2 env) := fun _ _ => rfl
theorem NoC.obsEnd2 (env : Env n) : NoC (Act.obsEnd2 env) := fun _ _ => rfl

theorem NoC.reject (i : Nat) : NoC (Act.reject (n := n) i) := by
  intro x m
  unfold Act.reject
  rw [show (M.setC x m).opt.params = m.opt.params from rfl, show (M.setC x m).uc = m.uc from rfl]
  split <;> rfl

theorem NoC.invoke (env : Env n) (k : Nat) : NoC (Act.invoke env k) := by
  intro x m
  unfold Act.invoke
  rw [show (M.setC x m).opt.obs = m.opt.obs from rfl]
  split <;> rfl

theorem NoC.callback (env : Env n) (k : Nat) : NoC (Act.callback env k) := by
  intro x m
  unfold Act.callback
  rw [show (M.setC x m).opt.obs = m.opt.obs from rfl]
  split
  · rfl
  · split
    · rfl
    · exact NoC.invoke env _ x m
    · rfl

theorem NoC.writeCkpt (env : Env n) : NoC (Act.writeCkpt env) := by
  intro x m
  unfold Act.writeCkpt
  rw [show (M.setC x m).saves = m.saves from rfl,
    show (M.setC x m).opt.createCkpt (env.stamp m.saves) = m.opt.createCkpt (env.stamp m.saves) from rfl]
  dsimp only
  split <;> rfl

theorem NoC.save (env : Env n) : NoC (Act.save env) := by
  intro x m
  unfold Act.save
  rw [show (M.setC x m).opt.ckpt = m.opt.ckpt from rfl, show (M.setC x m).opt.curIter = m.opt.curIter from rfl]
  split
  · rfl
  · split
    · rfl
    · split
      · exact NoC.writeCkpt env x m
      · rfl

theorem NoC.saveFinal (env : Env n) : NoC (Act.saveFinal env) := by
  intro x m
  unfold Act.saveFinal
  rw [show (M.setC x m).opt.ckpt = m.opt.ckpt from rfl]
  split
  · rfl
  · exact NoC.writeCkpt env x m

theorem Opt.process_setC (o : Opt n) (x : Option (List (Pt n))) (s : Sol n) :
    ({ o with custom := x } : Opt n).process s = ({ (o.process s).1 with custom := x }, (o.process s).2) := by
  unfold Opt.process
  rw [show Opt.setCfg ({ o with custom := x } : Opt n) = o.setCfg from rfl]
  dsimp only
  (repeat' split) <;> rfl

theorem NoC.process (s : Sol n) {k : Verdict → Act n} (h : ∀ v, NoC (k v)) : NoC (Act.process s k) := by
  intro x m
  unfold Act.process
  rw [show (M.setC x m).opt.process s = ({ (m.opt.process s).1 with custom := x }, (m.opt.process s).2) from
    Opt.process_setC _ _ _]
  dsimp only
  split
  · rfl
  · exact h _ x { m with opt := (m.opt.process s).1, trace := m.trace ++ [.processed s (m.opt.process s).2] }

theorem NoC.search (env : Env n) (ty : SolverType) (cfg : SolverConfig) (i : Option Nat) (p : Pt n)
    {k : Sol n → Nat → Act n} (h : ∀ s e, NoC (k s e)) : NoC (Act.search env ty cfg i p k) := by
  intro x m
  unfold Act.search
  rw [show (M.setC x m).opt.tracks2 = m.opt.tracks2 from rfl]
  split
  · rfl
  · rename_i s e _
    exact h s _ x { m with trace := m.trace ++ [.search i p (.ok s)] }

theorem NoC.getMerit (objs : Option (List F64)) (i : Nat) (p : Pt n) {k : F64 → Act n} (h : ∀ v, NoC (k v)) :
    NoC (Act.getMerit objs i p k) := by
  intro x m
  unfold Act.getMerit
  rw [show Act.meritValue (M.setC x m).opt objs i p = Act.meritValue m.opt objs i p from rfl]
  dsimp only
  split
  · split <;> rfl
  · rename_i v _
    have := (NoC.ite (c := objs.isNone = true) (NoC.obsEvals (n := n) 1) NoC.skip).seq (h v)
    split
    · rename_i hn
      rw [if_pos hn] at this
      exact this x { m with trace := m.trace ++ [.evaluate i p] }
    · rename_i hn
      rw [if_neg hn] at this
      exact this x m

theorem NoC.localSeq (env : Env n) (i : Nat) (p : Pt n) (v : F64) : NoC (Act.localSeq env i p v) := by
  intro x m
  exact (NoC.setThreshold v).seq (NoC.search env m.opt.lsType m.opt.lsConfig (some i) p fun s e =>
    NoC.process s fun v => (NoC.obsLocal _ _).seq NoC.stopIfTarget) x m

theorem NoC.stepSeq (env : Env n) (r : Bool) (st : Nat) (objs : Option (List F64)) (it : Nat × Pt n) :
    NoC (Act.stepSeq env r st objs it) := by
  unfold Act.stepSeq
  split
  · exact NoC.skip
  · refine (NoC.beginIter env _).seq ((NoC.obsIter _).seq (NoC.getMerit _ _ _ fun v => ?_))
    intro x m
    exact (NoC.log _).seq ((NoC.ite (c := m.opt.shouldStart it.2 v = true) (NoC.localSeq env _ _ _)
      (NoC.reject _)).seq ((NoC.callback env _).seq (NoC.save env))) x m

theorem NoC.batchSeq (env : Env n) (r : Bool) (st : Nat) (objs : Option (List F64)) (its : List (Nat × Pt n)) :
    NoC (Act.batchSeq env r st objs its) := by
  unfold Act.batchSeq
  refine NoC.all fun a ha => ?_
  obtain ⟨i, _, rfl⟩ := List.mem_map.1 ha
  exact NoC.stepSeq env r st objs i

theorem NoC.quickPar (env : Env n) (i : Nat) : NoC (Act.quickPar env i) :=
  (NoC.beginIter env _).seq ((NoC.reject _).seq ((NoC.obsIter _).seq ((NoC.callback env _).seq (NoC.save env))))

theorem NoC.resultPar (env : Env n) (i : Nat) (v : F64) (s : Sol n) (e : Nat) :
    NoC (Act.resultPar env i v s e) :=
  (NoC.beginIter env _).seq ((NoC.setThreshold _).seq (NoC.process s fun _ => (NoC.obsLocal _ _).seq
    ((NoC.obsIter _).seq ((NoC.callback env _).seq (NoC.stopIfTarget.seq (NoC.save env))))))

theorem NoC.singlePar (env : Env n) (i : Nat) (p : Pt n) (v : F64) : NoC (Act.singlePar env i p v) := by
  intro x m
  exact (NoC.beginIter env i).seq ((NoC.setThreshold v).seq (NoC.search env m.opt.lsType m.opt.lsConfig (some i) p
    fun s e => NoC.process s fun _ => (NoC.obsLocal _ _).seq ((NoC.obsIter _).seq ((NoC.invoke env _).seq
      (NoC.stopIfTarget.seq (NoC.save env)))))) x m

theorem NoC.groupPar (env : Env n) (k : Nat) (c : List (Nat × Pt n × F64)) : NoC (Act.groupPar env k c) := by
  intro x m
  unfold Act.groupPar
  rw [show Act.solveTask env (M.setC x m).opt = Act.solveTask env m.opt from rfl,
    show Act.solveEvent env (M.setC x m).opt = Act.solveEvent env m.opt from rfl]
  split
  · rfl
  · rename_i rs _
    refine NoC.all (l := rs.map fun r => Act.resultPar env r.1 r.2.1 r.2.2.1 r.2.2.2) (fun a ha => ?_) x
      { m with trace := m.trace ++ c.map (Act.solveEvent env m.opt) }
    obtain ⟨r, _, rfl⟩ := List.mem_map.1 ha
    exact NoC.resultPar env _ _ _ _

theorem NoC.localsPar (env : Env n) (k : Nat) (c : List (Nat × Pt n × F64)) : NoC (Act.localsPar env k c) := by
  intro x m
  unfold Act.localsPar
  rw [show (M.setC x m).opt.par = m.opt.par from rfl]
  split
  · exact NoC.groupPar env k c x m
  · refine NoC.all (fun a ha => ?_) x m
    obtain ⟨r, _, rfl⟩ := List.mem_map.1 ha
    exact NoC.singlePar env _ _ _

theorem NoC.afterEval (env : Env n) (objs : Option (List F64)) (k : Nat) (vals : List (Nat × Pt n × F64)) :
    NoC (Act.afterEval env objs k vals) := by
  intro x m
  unfold Act.afterEval
  rw [show Act.passes (M.setC x m).opt = Act.passes m.opt from rfl]
  refine ((NoC.ite (NoC.obsEvals _) NoC.skip).seq ((NoC.all fun a ha => ?_).seq (NoC.localsPar env _ _))) x
    { m with trace := m.trace ++ vals.map fun c => Event.examine c.1 c.2.1 c.2.2 (Act.passes m.opt c) }
  obtain ⟨r, _, rfl⟩ := List.mem_map.1 ha
  exact NoC.quickPar env _

theorem logEvals_setC (objs : Option (List F64)) (its : List (Nat × Pt n)) (x : Option (List (Pt n))) (m : M n) :
    Act.logEvals objs its (M.setC x m) = M.setC x (Act.logEvals objs its m) := by
  unfold Act.logEvals
  split <;> rfl

theorem NoC.batchPar (env : Env n) (r : Bool) (st : Nat) (objs : Option (List F64)) (its : List (Nat × Pt n)) :
    NoC (Act.batchPar env r st objs its) := by
  unfold Act.batchPar
  generalize (if r = true then _ else _ : List (Nat × Pt n)) = l
  cases l with
  | nil => exact NoC.skip
  | cons it l =>
    intro x m
    unfold Act.batchParItems
    dsimp only
    rw [show Act.evalTask (M.setC x m).opt objs = Act.evalTask m.opt objs from rfl, logEvals_setC]
    split
    · rfl
    · exact NoC.afterEval env objs _ _ x _

theorem NoC.loop (env : Env n) (r : Bool) (st : Nat) (objs : Option (List F64)) (eff k : Nat)
    (bs : List (List (Nat × Pt n))) : NoC (Act.loop env r st objs eff k bs) := by
  induction bs generalizing k with
  | nil => exact NoC.skip
  | cons b bs ih =>
    intro x m
    unfold Act.loop
    rw [show Act.timedOut env (M.setC x m).opt k = Act.timedOut env m.opt k from rfl]
    split
    · rfl
    · have hp : NoC (Act.procBatch env r st objs eff b) := by
        unfold Act.procBatch
        exact NoC.ite (NoC.batchPar env _ _ _ _) (NoC.batchSeq env _ _ _ _)
      rw [hp x m]
      cases hr : Act.procBatch env r st objs eff b m with
      | mk m' out =>
        cases out with
        | fail e => rfl
        | cont =>
          dsimp only
          rw [show (M.setC x m').opt.targetReached = m'.opt.targetReached from rfl]
          split
          · rfl
          · exact ih _ x m'
        | stop =>
          dsimp only
          rw [show (M.setC x m').opt.targetReached = m'.opt.targetReached from rfl]
          split
          · rfl
          · exact ih _ x m'

theorem NoC.stage2Main (env : Env n) (r : Bool) (st : Nat) (ref : List (Pt n)) (objs : Option (List F64)) :
    NoC (Act.stage2Main env r st ref objs) := by
  intro x m
  unfold Act.stage2Main
  rw [show (M.setC x m).opt.effBatch env.threads st = m.opt.effBatch env.threads st from rfl,
    show (M.setC x m).opt.params = m.opt.params from rfl]
  split
  · rfl
  · exact (NoC.loop env _ _ _ _ _ _).seq ((NoC.obsEnd2 env).seq (NoC.saveFinal env)) x m

theorem NoC.stage2_resumed (env : Env n) (ref : List (Pt n)) (objs : Option (List F64)) :
    NoC (Act.stage2 env true ref objs) := by
  unfold Act.stage2
  refine (NoC.obsStart2 env).seq ?_
  intro x m
  simp only [if_true]
  exact NoC.stage2Main env true m.opt.curIter ref objs x m

theorem NoC.body_resumed (env : Env n) : NoC (Act.body env true) := by
  intro x m
  unfold Act.body
  simp only [if_true]
  exact NoC.stage2_resumed env _ none x { m with uc := m.opt.unchanged }

end GS
