/- Sequential or parallel: if no solution is ever accepted, every solution found was recorded. -/
import Verif.Lemmas.Record

namespace GS
variable {n : Nat}

/-- The action did not fail. -/
def Out.ok (o : Out) : Prop := ∀ e, o ≠ .fail e

/-- As `Rec`, for executions that do not fail and end without a solution set. -/
def RecN (a : Act n) : Prop := ∀ m, foundSols m.trace = procs m.trace →
  (a m).1.opt.solset = none → (a m).2.ok → foundSols (a m).1.trace = procs (a m).1.trace

theorem Rec.recN {a : Act n} (h : Rec a) : RecN a := fun m hm _ _ => h m hm

/-- A solution set never disappears. -/
theorem Reach.unset {env : Env n} {m m' : M n} (h : Reach env m m') (hn : m'.opt.solset = none) :
    m.opt.solset = none := by
  induction h with
  | refl => exact hn
  | tail _ hp ih =>
    cases hp
    case opt hc hs hd => exact ih (hs ▸ hn)
    case proc s hs =>
      apply ih
      rename_i m1 _
      have h2 : (m1.opt.process s).1.solset = none := hn
      rw [Opt.process_solset] at h2
      cases hv : classify m1.opt.setCfg m1.opt.solset s <;> rw [hv] at h2 <;> simp_all [newSet]
    all_goals exact ih hn

theorem Out.ok_cont : Out.ok .cont := fun e he => by cases he
theorem Out.ok_stop : Out.ok .stop := fun e he => by cases he

theorem RecN.seq {env : Env n} {a b : Act n} (ha : RecN a) (hb : RecN b) (hs : Steps env b) :
    RecN (a ;; b) := by
  intro m h
  rw [Act.seq_def]
  split
  · rename_i hc
    intro h1 h2
    exact hb _ (ha m h ((hs _).unset h1) (by rw [hc]; exact Out.ok_cont)) h1 h2
  · exact ha m h

theorem RecN.all {env : Env n} {α : Type} (l : List α) (g : α → Act n) (h : ∀ a ∈ l, RecN (g a))
    (hs : ∀ a ∈ l, Steps env (g a)) : RecN (Act.all (l.map g)) := by
  induction l with
  | nil => exact QuietAct.skip.record.recN
  | cons a l ih =>
    refine (h a (by simp)).seq (env := env) (ih (fun x hx => h x (by simp [hx]))
      (fun x hx => hs x (by simp [hx]))) ?_
    apply Steps.all
    intro b hb
    rw [List.mem_map] at hb
    obtain ⟨c, hc, rfl⟩ := hb
    exact hs c (by simp [hc])

theorem targetReached_some {o : Opt n} (h : o.targetReached = true) : o.solset ≠ none := by
  intro hn
  unfold Opt.targetReached at h
  rw [hn] at h
  cases ht : o.target <;> rw [ht] at h <;> simp at h

/-- Found and recorded solutions do not change. -/
def NoSol (a : Act n) : Prop := ∀ m, foundSols (a m).1.trace = foundSols m.trace ∧
  procs (a m).1.trace = procs m.trace

theorem NoSol.seq {a b : Act n} (ha : NoSol a) (hb : NoSol b) : NoSol (a ;; b) := by
  intro m
  rw [Act.seq_def]
  split
  · exact ⟨(hb _).1.trans (ha m).1, (hb _).2.trans (ha m).2⟩
  · exact ha m

theorem QuietAct.noSol {a : Act n} (h : QuietAct a) : NoSol a :=
  fun m => ⟨(h.quiet m).found, (h.quiet m).procs⟩

/-- Processing one parallel result records its solution; without a solution set the loop goes on. -/
theorem resultPar_adds (env : Env n) (i : Nat) (v : F64) (s : Sol n) (e : Nat) (m : M n)
    (hok : (Act.resultPar env i v s e m).2.ok) :
    procs (Act.resultPar env i v s e m).1.trace = procs m.trace ++ [s] ∧
    foundSols (Act.resultPar env i v s e m).1.trace = foundSols m.trace ∧
    ((Act.resultPar env i v s e m).1.opt.solset = none → (Act.resultPar env i v s e m).2 = .cont) := by
  revert hok
  unfold Act.resultPar
  have h1 := (QuietAct.beginIter env i).noSol m
  have h0 := (QuietAct.beginIter env i).nostop m
  rw [Act.seq_def]
  split
  · rw [Act.seq_def, show (Act.setThreshold (n := n) v _).2 = .cont from rfl, if_pos rfl]
    have h2 : foundSols (Act.setThreshold v (Act.beginIter env i m).1).1.trace = foundSols m.trace ∧
        procs (Act.setThreshold v (Act.beginIter env i m).1).1.trace = procs m.trace := h1
    generalize (Act.setThreshold v (Act.beginIter env i m).1).1 = m1 at h2
    unfold Act.process
    dsimp only
    split
    · intro hok; exact absurd rfl (hok _)
    · intro hok
      generalize hm2 : ({ m1 with
        opt := (m1.opt.process s).1
        trace := m1.trace ++ [.processed s (m1.opt.process s).2] } : M n) = m2 at hok ⊢
      have hm2' : procs m2.trace = procs m.trace ++ [s] ∧ foundSols m2.trace = foundSols m.trace := by
        rw [← hm2]
        show procs (_ ++ _) = _ ∧ foundSols (_ ++ _) = _
        rw [procs_append, foundSols_append, h2.1, h2.2]
        exact ⟨rfl, List.append_nil _⟩
      have hq : QuietAct (Act.obsLocal (n := n) (m1.opt.process s).2.returned e ;; Act.obsIter i ;;
          Act.callback env i) := (QuietAct.obsLocal _ _).seq ((QuietAct.obsIter i).seq
            (QuietAct.callback env i))
      have hns : NoSol (Act.obsLocal (n := n) (m1.opt.process s).2.returned e ;; Act.obsIter i ;;
          Act.callback env i ;; Act.stopIfTarget ;; Act.save env) :=
        (QuietAct.obsLocal _ _).noSol.seq ((QuietAct.obsIter i).noSol.seq
          ((QuietAct.callback env i).noSol.seq (NoSol.seq (fun _ => ⟨rfl, rfl⟩)
            (QuietAct.save env).noSol)))
      refine ⟨(hns m2).2.trans hm2'.1, (hns m2).1.trans hm2'.2, ?_⟩
      intro hn
      generalize hr : (Act.obsLocal (n := n) (m1.opt.process s).2.returned e ;; Act.obsIter i ;;
          Act.callback env i ;; Act.stopIfTarget ;; Act.save env) m2 = r at hok hn
      cases hr2 : r.2 with
      | cont => rfl
      | fail e => exact absurd hr2 (hok e)
      | stop =>
        exfalso
        rw [Act.seq_def, show (Act.obsLocal (n := n) _ e _).2 = .cont from rfl, if_pos rfl,
          Act.seq_def, show (Act.obsIter (n := n) i _).2 = .cont from rfl, if_pos rfl,
          Act.seq_def] at hr
        split at hr
        · rw [Act.seq_def] at hr
          split at hr
          · exact (QuietAct.save env).nostop _ (by rw [hr]; exact hr2)
          · subst hr
            apply targetReached_some (o := (Act.callback env i (Act.obsIter i (Act.obsLocal _ e m2).1).1).1.opt) ?_ hn
            unfold Act.stopIfTarget at hr2
            dsimp only at hr2
            split at hr2
            · assumption
            · cases hr2
        · exact (QuietAct.callback env i).nostop _ (by rw [hr]; exact hr2)
  · rename_i hne
    intro hok
    cases hb : (Act.beginIter env i m).2 with
    | cont => exact absurd hb hne
    | stop => exact absurd hb h0
    | fail e => exact absurd hb (hok e)

theorem results_recorded {env : Env n} (rs : List (Nat × F64 × Sol n × Nat)) (m : M n)
    (h : foundSols m.trace = procs m.trace ++ rs.map (·.2.2.1))
    (hmem : ∀ r ∈ rs, ∃ it p, Event.search it p (.ok r.2.2.1) ∈ m.trace)
    (hn : (Act.all (rs.map fun r => Act.resultPar env r.1 r.2.1 r.2.2.1 r.2.2.2) m).1.opt.solset = none)
    (hok : (Act.all (rs.map fun r => Act.resultPar env r.1 r.2.1 r.2.2.1 r.2.2.2) m).2.ok) :
    foundSols (Act.all (rs.map fun r => Act.resultPar env r.1 r.2.1 r.2.2.1 r.2.2.2) m).1.trace =
      procs (Act.all (rs.map fun r => Act.resultPar env r.1 r.2.1 r.2.2.1 r.2.2.2) m).1.trace := by
  induction rs generalizing m with
  | nil => simpa [Act.all, Act.skip] using h
  | cons r rs ih =>
    rw [List.map_cons] at hn hok ⊢
    unfold Act.all at hn hok ⊢
    rw [Act.seq_def] at hn hok ⊢
    have hreach := StepsAfter.resultPar env r.1 r.2.1 r.2.2.1 r.2.2.2 m (hmem r (by simp))
    split at hn
    · rename_i hc
      rw [if_pos hc] at hok ⊢
      obtain ⟨k1, k2, _⟩ := resultPar_adds env r.1 r.2.1 r.2.2.1 r.2.2.2 m
        (by rw [hc]; exact Out.ok_cont)
      refine ih _ ?_ ?_ hn hok
      · rw [k1, k2, h]; simp
      · intro x hx
        obtain ⟨it, p, hp⟩ := hmem x (by simp [hx])
        obtain ⟨t, ht⟩ := hreach.trace
        exact ⟨it, p, by rw [ht]; simp [hp]⟩
    · rename_i hc
      rw [if_neg hc] at hok ⊢
      exact absurd ((resultPar_adds env r.1 r.2.1 r.2.2.1 r.2.2.2 m hok).2.2 hn) hc

theorem foundSols_solveEvents {env : Env n} {o : Opt n} {c : List (Nat × Pt n × F64)}
    {rs : List (Nat × F64 × Sol n × Nat)} (h : c.map (Act.solveTask env o) = rs.map Except.ok) :
    foundSols (c.map (Act.solveEvent env o)) = rs.map (·.2.2.1) ∧
    ∀ r ∈ rs, ∃ it p, Event.search it p (.ok r.2.2.1) ∈ c.map (Act.solveEvent env o) := by
  induction c generalizing rs with
  | nil =>
    cases rs with
    | nil => exact ⟨rfl, by simp⟩
    | cons r rs => simp at h
  | cons a c ih =>
    cases rs with
    | nil => simp at h
    | cons r rs =>
      rw [List.map_cons, List.map_cons, List.cons.injEq] at h
      obtain ⟨i1, i2⟩ := ih h.2
      have he := (solveTask_ok h.1).1
      constructor
      · rw [List.map_cons, List.map_cons, he, ← i1]; rfl
      · intro x hx
        rw [List.mem_cons] at hx
        rcases hx with rfl | hx
        · exact ⟨_, _, by rw [List.map_cons, he]; exact List.mem_cons_self⟩
        · obtain ⟨it, p, hp⟩ := i2 x hx
          exact ⟨it, p, by rw [List.map_cons]; exact List.mem_cons_of_mem _ hp⟩

theorem procs_solveEvents (env : Env n) (o : Opt n) (c : List (Nat × Pt n × F64)) :
    procs (c.map (Act.solveEvent env o)) = [] := by
  unfold procs
  rw [List.filterMap_eq_nil_iff]
  intro e he
  rw [List.mem_map] at he
  obtain ⟨a, _, rfl⟩ := he
  rfl

theorem RecN.groupPar (env : Env n) (k : Nat) (c : List (Nat × Pt n × F64)) :
    RecN (Act.groupPar env k c) := by
  intro m h
  unfold Act.groupPar
  split
  · intro _ h2; exact absurd rfl (h2 _)
  · rename_i rs hrs
    obtain ⟨i1, i2⟩ := foundSols_solveEvents (parCollect_ok hrs)
    intro h1 h2
    refine results_recorded rs _ ?_ ?_ h1 h2
    · show foundSols (_ ++ _) = procs (_ ++ _) ++ _
      rw [foundSols_append, procs_append, h, i1, procs_solveEvents, List.append_nil]
    · intro r hr
      obtain ⟨it, p, hp⟩ := i2 r hr
      exact ⟨it, p, by simp [hp]⟩

theorem Rec.singlePar (env : Env n) (i : Nat) (p : Pt n) (v : F64) :
    Rec (Act.singlePar env i p v) := by
  intro m
  unfold Act.singlePar
  exact ((QuietAct.beginIter env i).record.seq (Rec.seq (Rec.same fun _ => rfl) (Rec.search
    fun s e v => (QuietAct.obsLocal _ _).record.seq ((QuietAct.obsIter i).record.seq
      ((QuietAct.invoke env _).record.seq (Rec.stopIfTarget.seq (QuietAct.save env).record)))))) m

theorem Rec.quickPar (env : Env n) (i : Nat) : Rec (Act.quickPar env i) :=
  (QuietAct.beginIter env i).record.seq ((Rec.reject i).seq ((QuietAct.obsIter i).record.seq
    ((QuietAct.callback env i).record.seq (QuietAct.save env).record)))

theorem RecN.localsPar (env : Env n) (k : Nat) (c : List (Nat × Pt n × F64)) :
    RecN (Act.localsPar env k c) := by
  intro m
  unfold Act.localsPar
  split
  · exact RecN.groupPar env k c m
  · exact (Rec.all c (fun c => Act.singlePar env c.1 c.2.1 c.2.2)
      fun x _ => Rec.singlePar env _ _ _).recN m

theorem Rec.logs {m : M n} {t : List (Event n)} (h1 : foundSols t = []) (h2 : procs t = [])
    (h : foundSols m.trace = procs m.trace) :
    foundSols (m.trace ++ t) = procs (m.trace ++ t) := by
  rw [foundSols_append, procs_append, h1, h2, h]

theorem RecN.afterEval (env : Env n) (objs : Option (List F64)) (k : Nat)
    (vals : List (Nat × Pt n × F64)) : RecN (Act.afterEval env objs k vals) := by
  intro m h
  unfold Act.afterEval
  have h2 : Rec (if objs.isNone = true then Act.obsEvals (n := n) vals.length else Act.skip) := by
    split
    · exact (QuietAct.obsEvals _).record
    · exact QuietAct.skip.record
  have hq := Rec.all (vals.filter fun c => !Act.passes m.opt c) (fun c => Act.quickPar env c.1)
    fun x _ => Rec.quickPar env x.1
  have hsq : Steps env (Act.all ((vals.filter fun c => !Act.passes m.opt c).map
      fun c => Act.quickPar env c.1)) := by
    apply Steps.all
    intro b hb
    rw [List.mem_map] at hb
    obtain ⟨c, _, rfl⟩ := hb
    exact Steps.quickPar env _
  refine RecN.seq h2.recN (RecN.seq hq.recN (RecN.localsPar env k _) (Steps.localsPar env k _))
    (hsq.seq (Steps.localsPar env k _)) _ ?_
  refine Rec.logs ?_ ?_ h
  · unfold foundSols
    rw [List.filterMap_eq_nil_iff]
    intro e he
    rw [List.mem_map] at he
    obtain ⟨_, _, rfl⟩ := he
    rfl
  · unfold procs
    rw [List.filterMap_eq_nil_iff]
    intro e he
    rw [List.mem_map] at he
    obtain ⟨_, _, rfl⟩ := he
    rfl

theorem RecN.batchParItems (env : Env n) (objs : Option (List F64)) (its : List (Nat × Pt n)) :
    RecN (Act.batchParItems env objs its) := by
  cases its with
  | nil => exact QuietAct.skip.record.recN
  | cons it0 its =>
    intro m h
    unfold Act.batchParItems
    dsimp only
    split
    · intro _ h2; exact absurd rfl (h2 _)
    · refine RecN.afterEval env objs it0.1 _ _ ?_
      unfold Act.logEvals
      split
      · refine Rec.logs ?_ ?_ h
        · unfold foundSols
          rw [List.filterMap_eq_nil_iff]
          intro e he
          rw [List.mem_map] at he
          obtain ⟨_, _, rfl⟩ := he
          rfl
        · unfold procs
          rw [List.filterMap_eq_nil_iff]
          intro e he
          rw [List.mem_map] at he
          obtain ⟨_, _, rfl⟩ := he
          rfl
      · exact h

theorem RecN.loop (env : Env n) (r : Bool) (st : Nat) (objs : Option (List F64)) (eff k : Nat)
    (bs : List (List (Nat × Pt n))) : RecN (Act.loop env r st objs eff k bs) := by
  induction bs generalizing k with
  | nil => exact QuietAct.skip.record.recN
  | cons b bs ih =>
    intro m h
    unfold Act.loop
    split
    · exact fun _ _ => h
    · have hb : RecN (Act.procBatch env r st objs eff b) := by
        unfold Act.procBatch
        split
        · unfold Act.batchPar; exact RecN.batchParItems env objs _
        · exact (Rec.batchSeq env r st objs b).recN
      have h1 := hb m h
      generalize Act.procBatch env r st objs eff b m = res at h1
      obtain ⟨m', out⟩ := res
      cases out
      case fail => exact fun _ h2 => absurd rfl (h2 _)
      case cont =>
        dsimp only at h1 ⊢
        split
        · exact fun hn _ => h1 hn Out.ok_cont
        · intro hn hok
          exact ih (k + 1) m' (h1 ((Steps.loop env r st objs eff (k + 1) bs m').unset hn)
            Out.ok_cont) hn hok
      case stop =>
        dsimp only at h1 ⊢
        split
        · exact fun hn _ => h1 hn Out.ok_stop
        · intro hn hok
          exact ih (k + 1) m' (h1 ((Steps.loop env r st objs eff (k + 1) bs m').unset hn)
            Out.ok_stop) hn hok

theorem RecN.stage2Main (env : Env n) (r : Bool) (st : Nat) (ref : List (Pt n))
    (objs : Option (List F64)) : RecN (Act.stage2Main env r st ref objs) := by
  intro m h
  unfold Act.stage2Main
  split
  · exact fun _ _ => h
  · exact (RecN.loop env r st objs _ 0 _).seq
      ((QuietAct.obsEnd2 env).seq (QuietAct.saveFinal env)).record.recN
      (Steps.seq (Steps.obs (env := env)) (Steps.saveFinal env)) m h

theorem RecN.stage2 (env : Env n) (r : Bool) (ref : List (Pt n)) (objs : Option (List F64)) :
    RecN (Act.stage2 env r ref objs) := by
  unfold Act.stage2
  intro m h
  rw [Act.seq_def, show (Act.obsStart2 (n := n) env _).2 = .cont from rfl, if_pos rfl]
  have h1 := (QuietAct.obsStart2 env).record m h
  generalize (Act.obsStart2 env m).1 = m1 at *
  cases r with
  | true =>
    simp only [if_true]
    exact RecN.stage2Main env true _ ref objs m1 h1
  | false =>
    simp only [Bool.false_eq_true, if_false]
    split
    · exact fun _ _ => h1
    · exact (QuietAct.setSeed _).record.recN.seq (RecN.stage2Main env false 0 _ objs)
        (Steps.stage2Main env false 0 _ objs) m1 h1

theorem recN_fresh (env : Env n) : RecN (Act.body (n := n) env false) := by
  intro m h
  unfold Act.body
  rw [if_neg (by simp)]
  unfold Act.stage1
  split
  · exact fun _ _ => h
  · rename_i r hr
    have hb : Rec (if m.opt.tracks1 = true then Act.obsScatter env r else Act.skip) := by
      split
      · exact (QuietAct.obsScatter env r).record
      · exact QuietAct.skip.record
    have hs : Steps env (if m.opt.tracks1 = true then Act.obsScatter env r else Act.skip) := by
      split
      · exact Steps.obsScatter env r
      · exact Steps.skip env
    have s5 := Steps.stage2 env false (r.ref.map Prod.fst) (some (r.ref.map Prod.snd))
    have s4 := Steps.seq (env := env) (a := fun m : M n => ({ m with uc := 0 }, .cont))
      (fun m => Relation.ReflTransGen.single (Prim.uc m 0)) s5
    have s3 := (Steps.stage1Local env r.best (r.ref.map Prod.fst)).seq s4
    have s2 := (Steps.obsScatterDone env (r.ref.map Prod.fst) (r.ref.map Prod.snd)).seq s3
    exact (QuietAct.log rfl).record.recN.seq (hb.recN.seq ((QuietAct.obsScatterDone env _ _).record.recN.seq
      ((Rec.stage1Local env _ _).recN.seq ((Rec.recN (Rec.same fun _ => rfl)).seq
        (RecN.stage2 env false _ _) s5) s4) s3) s2) (hs.seq s2) m h

theorem recN_resumed (env : Env n) : RecN (Act.body (n := n) env true) := by
  intro m h
  unfold Act.body
  rw [if_pos rfl]
  exact RecN.stage2 env true _ _ _ h

end GS
