/- In sequential runs every solution found by a local search is recorded, in the order found. -/
import Verif.Lemmas.Built

namespace GS
variable {n : Nat}

/-- Solutions returned by local searches. -/
def foundSols (tr : List (Event n)) : List (Sol n) :=
  tr.filterMap fun e => match e with
    | .search _ _ (.ok s) => some s
    | _ => none

theorem foundSols_append (a b : List (Event n)) : foundSols (a ++ b) = foundSols a ++ foundSols b := by
  simp [foundSols]

/-- The action keeps the found and the recorded solutions equal. -/
def Rec (a : Act n) : Prop :=
  ∀ m, foundSols m.trace = procs m.trace → foundSols (a m).1.trace = procs (a m).1.trace

theorem Rec.seq {a b : Act n} (ha : Rec a) (hb : Rec b) : Rec (a ;; b) := by
  intro m h
  rw [Act.seq_def]
  split
  · exact hb _ (ha m h)
  · exact ha m h

theorem Quiet.found {m m' : M n} (q : Quiet m m') : foundSols m'.trace = foundSols m.trace := by
  obtain ⟨t, ht, hn⟩ := q.tr
  rw [ht, foundSols_append, show foundSols t = [] from ?_, List.append_nil]
  unfold foundSols
  rw [List.filterMap_eq_nil_iff]
  intro e he
  have := hn e he
  cases e <;> first | rfl | simp [Event.neutral] at this

theorem QuietAct.record {a : Act n} (ha : QuietAct a) : Rec a := fun m h => by
  rw [(ha.quiet m).found, (ha.quiet m).procs, h]

theorem Rec.all {α : Type} (l : List α) (g : α → Act n) (h : ∀ a ∈ l, Rec (g a)) :
    Rec (Act.all (l.map g)) := by
  induction l with
  | nil => exact QuietAct.skip.record
  | cons a l ih => exact (h a (by simp)).seq (ih fun x hx => h x (by simp [hx]))

theorem Rec.same {a : Act n} (h : ∀ m, (a m).1.trace = m.trace) : Rec a := by
  intro m hm; rw [h m, hm]

theorem Rec.log {e : Event n} (h1 : foundSols [e] = []) (h2 : procs [e] = []) : Rec (Act.log e) := by
  intro m hm
  show foundSols (_ ++ _) = procs (_ ++ _)
  rw [foundSols_append, procs_append, h1, h2, hm]

/-- Recording the one solution that is still missing. -/
theorem Rec.process {m : M n} {s : Sol n} {k : Verdict → Act n} (hk : ∀ v, Rec (k v))
    (h : foundSols m.trace = procs m.trace ++ [s]) :
    foundSols (Act.process s k m).1.trace = procs (Act.process s k m).1.trace := by
  have key : foundSols (m.trace ++ [.processed s (m.opt.process s).2]) =
      procs (m.trace ++ [.processed s (m.opt.process s).2]) := by
    rw [foundSols_append, procs_append, h]
    exact List.append_nil _
  unfold Act.process
  dsimp only
  split
  · exact key
  · exact hk _ _ key

theorem Rec.search {env : Env n} {ty : SolverType} {cfg : SolverConfig} {iter : Option Nat} {p : Pt n}
    {k : Sol n → Nat → Verdict → Act n} (hk : ∀ s e v, Rec (k s e v)) :
    Rec (Act.search env ty cfg iter p fun s e => Act.process s (k s e)) := by
  intro m h
  unfold Act.search
  split
  · show foundSols (_ ++ _) = procs (_ ++ _)
    rw [foundSols_append, procs_append, h]; rfl
  · rename_i s v _
    apply Rec.process (hk s _)
    show foundSols (_ ++ _) = procs (_ ++ _) ++ _
    rw [foundSols_append, procs_append, h]
    show _ = (_ ++ []) ++ _
    rw [List.append_nil]; rfl

theorem Rec.stopIfTarget : Rec (Act.stopIfTarget (n := n)) := Rec.same fun _ => rfl

theorem Rec.reject (i : Nat) : Rec (Act.reject (n := n) i) := by
  intro m h
  unfold Act.reject
  split
  · show foundSols (_ ++ _) = procs (_ ++ _)
    rw [foundSols_append, procs_append, h]; rfl
  · exact h

theorem Rec.stepSeq (env : Env n) (r : Bool) (st : Nat) (objs : Option (List F64))
    (it : Nat × Pt n) : Rec (Act.stepSeq env r st objs it) := by
  unfold Act.stepSeq
  split
  · exact QuietAct.skip.record
  · refine (QuietAct.beginIter env _).record.seq ((QuietAct.obsIter _).record.seq ?_)
    intro m h
    unfold Act.getMerit
    dsimp only
    have h1 : foundSols (if objs.isNone = true then
        { m with trace := m.trace ++ [.evaluate it.1 it.2] } else m).trace = procs
        (if objs.isNone = true then { m with trace := m.trace ++ [.evaluate it.1 it.2] } else m).trace := by
      split
      · show foundSols (_ ++ _) = procs (_ ++ _)
        rw [foundSols_append, procs_append, h]; rfl
      · exact h
    split
    · exact h1
    · rename_i v _
      have h2 : Rec (if objs.isNone = true then Act.obsEvals (n := n) 1 else Act.skip) := by
        split
        · exact (QuietAct.obsEvals 1).record
        · exact QuietAct.skip.record
      refine (h2.seq ?_) _ h1
      intro m2 hm2
      refine ((Rec.log (e := .examine it.1 it.2 v (m2.opt.shouldStart it.2 v)) rfl rfl).seq
        (Rec.seq ?_ ((QuietAct.callback env _).record.seq (QuietAct.save env).record))) m2 hm2
      split
      · intro m3 hm3
        unfold Act.localSeq
        exact ((Rec.same fun _ => rfl).seq (Rec.search fun s e v =>
          (QuietAct.obsLocal _ _).record.seq Rec.stopIfTarget)) m3 hm3
      · exact Rec.reject _

theorem Rec.batchSeq (env : Env n) (r : Bool) (st : Nat) (objs : Option (List F64))
    (its : List (Nat × Pt n)) : Rec (Act.batchSeq env r st objs its) :=
  Rec.all its _ fun it _ => Rec.stepSeq env r st objs it

theorem Rec.loop (env : Env n) (r : Bool) (st : Nat) (objs : Option (List F64)) (eff k : Nat)
    (heff : ¬ 1 < eff) (bs : List (List (Nat × Pt n))) : Rec (Act.loop env r st objs eff k bs) := by
  induction bs generalizing k with
  | nil => exact QuietAct.skip.record
  | cons b bs ih =>
    intro m h
    unfold Act.loop
    split
    · exact h
    · have hb : Act.procBatch env r st objs eff b m = Act.batchSeq env r st objs b m := by
        unfold Act.procBatch; rw [if_neg heff]
      have h1 := Rec.batchSeq env r st objs b m h
      rw [← hb] at h1
      generalize Act.procBatch env r st objs eff b m = res at h1
      obtain ⟨m', out⟩ := res
      cases out
      case fail => exact h1
      all_goals
        dsimp only
        split
        · exact h1
        · exact ih (k + 1) m' h1

theorem record_stage2Main (env : Env n) (r : Bool) (st : Nat) (ref : List (Pt n))
    (objs : Option (List F64)) (m : M n) (heff : ¬ 1 < m.opt.effBatch env.threads st)
    (h : foundSols m.trace = procs m.trace) :
    foundSols (Act.stage2Main env r st ref objs m).1.trace =
      procs (Act.stage2Main env r st ref objs m).1.trace := by
  unfold Act.stage2Main
  split
  · exact h
  · exact ((Rec.loop env r st objs _ 0 heff _).seq
      ((QuietAct.obsEnd2 env).seq (QuietAct.saveFinal env)).record) m h

theorem Rec.stage1Local (env : Env n) (p : Pt n) (ref : List (Pt n)) :
    Rec (Act.stage1Local env p ref) := by
  intro m h
  unfold Act.stage1Local
  split
  · show foundSols (_ ++ _) = procs (_ ++ _)
    rw [foundSols_append, procs_append, h]; rfl
  · rename_i s evals _
    generalize hm1 : ({ m with trace := m.trace ++ [.search none p (.ok s)] } : M n) = m1
    have h1 : foundSols m1.trace = procs m1.trace ++ [s] := by
      rw [← hm1]
      show foundSols (_ ++ _) = procs (_ ++ _) ++ _
      rw [foundSols_append, procs_append, h]
      show _ = (_ ++ []) ++ _
      rw [List.append_nil]; rfl
    rw [Act.seq_def, show (Act.setThreshold (n := n) _ _).2 = .cont from rfl, if_pos rfl, Act.seq_def,
      obsLocal1_cont, if_pos rfl]
    have hq := (QuietAct.obsLocal1 env s (if m.opt.tracks1 = true then evals else 0)).quiet
      (Act.setThreshold s.objective m1).1
    apply Rec.process
    · intro v m' hm'
      dsimp only
      split
      · exact ((QuietAct.obsEnd1 env).record.seq (Rec.same fun _ => rfl)) m' hm'
      · exact ((QuietAct.storeRef ref).seq (QuietAct.obsEnd1 env)).record m' hm'
    · rw [hq.found, hq.procs]; exact h1

/-- Sequencing with a continuation that needs the configuration `o`. -/
theorem record_seq {env : Env n} {o : Opt n} {a b : Act n} (ha : Rec a) (hst : Steps env a)
    (hb : ∀ m, SameCfg o m.opt → foundSols m.trace = procs m.trace →
      foundSols (b m).1.trace = procs (b m).1.trace) (m : M n) (hc : SameCfg o m.opt)
    (h : foundSols m.trace = procs m.trace) :
    foundSols ((a ;; b) m).1.trace = procs ((a ;; b) m).1.trace := by
  rw [Act.seq_def]
  split
  · exact hb _ (hc.trans (hst m).cfg) (ha m h)
  · exact ha m h

theorem record_stage2 {env : Env n} {o : Opt n} (r : Bool) (ref : List (Pt n))
    (objs : Option (List F64)) (m : M n) (hc : SameCfg o m.opt)
    (heff : ¬ 1 < o.effBatch env.threads (if r then m.opt.curIter else 0))
    (h : foundSols m.trace = procs m.trace) :
    foundSols (Act.stage2 env r ref objs m).1.trace = procs (Act.stage2 env r ref objs m).1.trace := by
  have heq : ∀ (m' : M n) st, SameCfg o m'.opt → m'.opt.effBatch env.threads st =
      o.effBatch env.threads st := by
    intro m' st hc
    unfold Opt.effBatch; rw [hc.par, hc.batch, hc.params]
  unfold Act.stage2
  rw [Act.seq_def, show (Act.obsStart2 (n := n) env _).2 = .cont from rfl, if_pos rfl]
  have h1 := (QuietAct.obsStart2 env).record m h
  have hc1 : SameCfg o (Act.obsStart2 env m).1.opt := hc.trans (Steps.obs (env := env) m).cfg
  have hcur : (Act.obsStart2 env m).1.opt.curIter = m.opt.curIter := rfl
  generalize (Act.obsStart2 env m).1 = m1 at *
  cases r with
  | true =>
    simp only [if_true] at heff ⊢
    exact record_stage2Main env true _ ref objs m1 (by rw [heq _ _ hc1, hcur]; exact heff) h1
  | false =>
    simp only [Bool.false_eq_true, if_false] at heff ⊢
    split
    · exact h1
    · exact record_seq (QuietAct.setSeed _).record (Steps.setSeed env _)
        (fun m2 hc2 h2 => record_stage2Main env false 0 _ objs m2 (by rw [heq _ _ hc2]; exact heff) h2)
        m1 hc1 h1

theorem record_fresh {env : Env n} {o : Opt n} (heff : ¬ 1 < o.effBatch env.threads 0) :
    foundSols (Act.body env false ⟨o, 0, 0, []⟩).1.trace =
      procs (Act.body env false ⟨o, 0, 0, []⟩).1.trace := by
  unfold Act.body
  rw [if_neg (by simp)]
  unfold Act.stage1
  split
  · rfl
  · rename_i r hr
    have hb : Rec (if o.tracks1 = true then Act.obsScatter env r else Act.skip) := by
      split
      · exact (QuietAct.obsScatter env r).record
      · exact QuietAct.skip.record
    have hs : Steps env (if o.tracks1 = true then Act.obsScatter env r else Act.skip) := by
      split
      · exact Steps.obsScatter env r
      · exact Steps.skip env
    refine record_seq (env := env) (o := o) (QuietAct.log rfl).record (Steps.log rfl rfl) ?_ _ (SameCfg.refl o) rfl
    refine record_seq hb hs ?_
    refine record_seq (QuietAct.obsScatterDone env _ _).record (Steps.obsScatterDone env _ _) ?_
    refine record_seq (Rec.stage1Local env _ _) (Steps.stage1Local env _ _) ?_
    refine record_seq (env := env) (Rec.same fun _ => rfl) (fun m => Relation.ReflTransGen.single (Prim.uc m 0)) ?_
    intro m hc h
    exact record_stage2 false _ _ m hc (by simpa using heff) h

end GS
