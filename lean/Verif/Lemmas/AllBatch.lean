/- The invariant of `Verif.Lemmas.AllRun` over one batch of stage 2, sequential or parallel. -/
import Verif.Lemmas.AllRun

namespace GS
open Relation F64
variable {n : Nat}

/-- The optimizer has an observer with a callback of frequency zero. -/
def ZeroFrequency (o : Opt n) : Prop := ∃ b, o.obs = some b ∧ b.callback.isSome = true ∧ b.frequency = 0

/-- Result of a part of stage 2 after which the points `X` are examined; `lv` says that the run does not
go on once the target is reached. -/
structure PPost (env : Env n) (o : Opt n) (w0 : Nat) (V : Nat → Pt n → F64 → Prop) (bn : Nat → Nat)
    (lv : Bool) (X : List (Nat × Pt n)) (pv : List F64) (ps : List (Nat × Pt n)) (fs : List (Sol n))
    (rj : List Nat) (r : M n × Out) : Prop where
  good : MeetRun env o w0 V bn r.1
  ex : examined r.1.trace = X
  cont : r.2 = .cont → AllInv env o w0 V bn r.1 pv ps fs rj ∧
    (lv = true → r.1.opt.targetReached = false)
  stop : r.2 = .stop → r.1.opt.targetReached = true ∧
    ∃ pv ps fs rj, AllInv env o w0 V bn r.1 pv ps fs rj
  fail : ∀ e, r.2 = .fail e → r.1.opt.targetReached = false ∨ (∃ c, e = .checkpoint c) ∨
    (e = .panic ∧ ZeroFrequency r.1.opt)

variable {env : Env n} {o : Opt n} {w0 : Nat} {V : Nat → Pt n → F64 → Prop} {bn : Nat → Nat}
  {X : List (Nat × Pt n)}

theorem PPost.seq {lv lv' : Bool} {pv ps fs rj pv' ps' fs' rj'} {a b : Act n} {m : M n}
    (ha : PPost env o w0 V bn lv X pv ps fs rj (a m))
    (hb : ∀ m1, AllInv env o w0 V bn m1 pv ps fs rj → (lv = true → m1.opt.targetReached = false) →
      examined m1.trace = X → PPost env o w0 V bn lv' X pv' ps' fs' rj' (b m1)) :
    PPost env o w0 V bn lv' X pv' ps' fs' rj' ((a ;; b) m) := by
  rw [Act.seq_def]
  split
  · rename_i hc
    exact hb _ (ha.cont hc).1 (ha.cont hc).2 ha.ex
  · rename_i hc
    exact ⟨ha.good, ha.ex, fun h => absurd h hc, ha.stop, ha.fail⟩

/-- The action fails only by panicking, because of a callback frequency of zero. -/
def OnlyPanic (a : Act n) : Prop := ∀ m e, (a m).2 = .fail e → e = .panic ∧ ZeroFrequency (a m).1.opt

theorem OnlyPanic.never {a : Act n} (h : ∀ m, (a m).2 = .cont) : OnlyPanic a :=
  fun m e he => by rw [h m] at he; cases he

theorem OnlyPanic.callback (env : Env n) (i : Nat) : OnlyPanic (Act.callback env i) := by
  intro m e he
  unfold Act.callback at he ⊢
  cases hb : m.opt.obs with
  | none => rw [hb] at he; cases he
  | some b =>
    rw [hb] at he
    dsimp only at he ⊢
    cases hs : b.shouldInvoke i with
    | none =>
      rw [hs] at he
      cases he
      refine ⟨rfl, b, hb, ?_⟩
      unfold Obs.shouldInvoke at hs
      split at hs
      · rename_i h1
        split at hs
        · rename_i h2
          exact ⟨h1, h2⟩
        · cases hs
      · cases hs
    | some x =>
      rw [hs] at he
      cases x
      · cases he
      · dsimp only at he
        rw [invoke_cont] at he; cases he

theorem PPost.quiet {lv : Bool} {pv ps fs rj} {a : Act n} {m : M n}
    (h : AllInv env o w0 V bn m pv ps fs rj) (ht : lv = true → m.opt.targetReached = false)
    (hx : examined m.trace = X) (ha : QuietAct a) (hs : Steps env a)
    (hp : lv = true ∨ OnlyPanic a) : PPost env o w0 V bn lv X pv ps fs rj (a m) := by
  have q := ha.quiet m
  have h1 := h.quiet q (hs m)
  refine ⟨h1.good, q.examined.trans hx, fun _ => ⟨h1, fun hl => q.target.trans (ht hl)⟩,
    fun hc => absurd hc (ha.nostop m), fun e he => ?_⟩
  rcases hp with hp | hp
  · exact Or.inl (q.target.trans (ht hp))
  · exact Or.inr (Or.inr (hp m e he))

theorem PPost.stopIfTarget {pv ps fs rj} {m : M n} (h : AllInv env o w0 V bn m pv ps fs rj)
    (hx : examined m.trace = X) : PPost env o w0 V bn true X pv ps fs rj (Act.stopIfTarget m) := by
  unfold Act.stopIfTarget
  cases ht : m.opt.targetReached
  · exact ⟨h.good, hx, fun _ => ⟨h, fun _ => ht⟩, (fun hc => by cases hc), fun _ _ => Or.inl ht⟩
  · exact ⟨h.good, hx, (fun hc => by cases hc), fun _ => ⟨ht, _, _, _, _, h⟩, (fun _ hc => by cases hc)⟩

/-- Recording one solution. -/
theorem PPost.process {lv : Bool} {v : F64} {pv ps fs rj pv' ps' fs' rj'} {s : Sol n} {k : Verdict → Act n}
    {m : M n} (h : AllInv env o w0 V bn m (v :: pv) ps (s :: fs) rj) (hne : o.solset ≠ some [])
    (ht : m.opt.targetReached = false) (hx : examined m.trace = X)
    (hs : ∃ it p, Event.search it p (.ok s) ∈ m.trace)
    (hk : ∀ w m1, AllInv env o w0 V bn m1 pv ps fs rj → examined m1.trace = X →
      PPost env o w0 V bn lv X pv' ps' fs' rj' (k w m1)) :
    PPost env o w0 V bn lv X pv' ps' fs' rj' ((Act.setThreshold v ;; Act.process s k) m) := by
  rw [Act.seq_def, show (Act.setThreshold (n := n) v m).2 = .cont from rfl, if_pos rfl]
  have h1 := h.process v rfl hs (Or.inr (h.noTarget hne ht))
  have e1 : (Act.setThreshold v m).1 = { m with opt := { m.opt with merit := m.opt.merit.update v } } := rfl
  rw [e1]
  unfold Act.process
  dsimp only
  split
  · rename_i hpan
    exact absurd hpan ((h1.hist hne).genuine s _ (by simp)).1
  · refine hk _ _ h1 ?_
    show examined (_ ++ [_]) = _
    rw [examined_append, hx]; simp [examined]

/-- One local search followed by recording its solution. -/
theorem PPost.search {lv : Bool} {v : F64} {it : Nat} {p : Pt n} {pv ps rj pv' ps' fs' rj'}
    {k : Sol n → Nat → Verdict → Act n} {m : M n} {ty : SolverType} {cfg : SolverConfig}
    (h : AllInv env o w0 V bn m (v :: pv) ((it, p) :: ps) [] rj) (hne : o.solset ≠ some [])
    (ht : m.opt.targetReached = false) (hx : examined m.trace = X)
    (hty : ty = m.opt.lsType) (hcfg : cfg = m.opt.lsConfig)
    (hk : ∀ s e w m1, AllInv env o w0 V bn m1 pv ps [] rj → examined m1.trace = X →
      PPost env o w0 V bn lv X pv' ps' fs' rj' (k s e w m1)) :
    PPost env o w0 V bn lv X pv' ps' fs' rj'
      ((Act.setThreshold v ;; Act.search env ty cfg (some it) p fun s e =>
        Act.process s (k s e)) m) := by
  subst hty hcfg
  rw [Act.seq_def, show (Act.setThreshold (n := n) v m).2 = .cont from rfl, if_pos rfl]
  have e1 : (Act.setThreshold v m).1 = { m with opt := { m.opt with merit := m.opt.merit.update v } } := rfl
  rw [e1]
  unfold Act.search
  split
  · rename_i e he
    have h1 := h.search hne ht (.error e) (Or.inl (by rw [he]; rfl))
    obtain ⟨u, sv, h0⟩ := h1.reach
    have hr : Reach env ({ m with trace := m.trace ++ [.search (some it) p (.error e)] } : M n)
      { m with opt := { m.opt with merit := m.opt.merit.update v }
               trace := m.trace ++ [.search (some it) p (.error e)] } :=
      reach_opt env _ { m.opt with merit := m.opt.merit.update v } (by constructor <;> rfl) rfl rfl
    refine ⟨⟨⟨u, sv, h0.trans hr⟩, h1.meet⟩, ?_, (fun hc => by cases hc), (fun hc => by cases hc),
      fun _ _ => Or.inl ht⟩
    show examined (_ ++ [_]) = _
    rw [examined_append, hx]; simp [examined]
  · rename_i s ev he
    have h1 := h.search hne ht (.ok s) (Or.inl (by rw [he]; rfl))
    have h2 := h1.process v rfl ⟨some it, p, by simp⟩ (Or.inr (h1.noTarget hne ht))
    unfold Act.process
    dsimp only
    split
    · rename_i hpan
      exact absurd hpan ((h2.hist hne).genuine s _ (by simp)).1
    · refine hk _ _ _ _ h2 ?_
      show examined (_ ++ [_]) = _
      rw [examined_append, examined_append, hx]; simp [examined]

/-! ### Parallel batches -/

theorem quickPar_post {pv ps fs rj} {it : Nat} {m : M n}
    (h : AllInv env o w0 V bn m pv ps fs (it :: rj)) (hne : o.solset ≠ some [])
    (ht : m.opt.targetReached = false) (hx : examined m.trace = X) :
    PPost env o w0 V bn true X pv ps fs rj (Act.quickPar env it m) := by
  unfold Act.quickPar
  refine (PPost.quiet (lv := true) h (fun _ => ht) hx (QuietAct.beginIter env it)
    (Steps.beginIter env it) (Or.inl rfl)).seq fun m1 h1 ht1 hx1 => ?_
  obtain ⟨a, b, c, d⟩ := h1.reject hne
  rw [Act.seq_def, b, if_pos rfl]
  exact PPost.quiet a (fun _ => c.trans (ht1 rfl)) (d.trans hx1)
    ((QuietAct.obsIter it).seq ((QuietAct.callback env it).seq (QuietAct.save env)))
    ((Steps.obsIter env it).seq ((Steps.callback env it).seq (Steps.save env))) (Or.inl rfl)

theorem quicks_post {α : Type} {pv ps fs} (f : α → Nat) (l : List α) {m : M n}
    (h : AllInv env o w0 V bn m pv ps fs (l.map f)) (hne : o.solset ≠ some [])
    (ht : m.opt.targetReached = false) (hx : examined m.trace = X) :
    PPost env o w0 V bn true X pv ps fs []
      (Act.all (l.map fun c => Act.quickPar env (f c)) m) := by
  induction l generalizing m with
  | nil => exact PPost.quiet h (fun _ => ht) hx QuietAct.skip (Steps.skip env) (Or.inl rfl)
  | cons a l ih =>
    rw [List.map_cons]
    unfold Act.all
    exact (quickPar_post h hne ht hx).seq fun m1 h1 ht1 hx1 => ih h1 (ht1 rfl) hx1

theorem resultPar_post {v : F64} {pv ps fs rj} {it : Nat} {s : Sol n} {ev : Nat} {m : M n}
    (h : AllInv env o w0 V bn m (v :: pv) ps (s :: fs) rj) (hne : o.solset ≠ some [])
    (ht : m.opt.targetReached = false) (hx : examined m.trace = X)
    (hs : ∃ it p, Event.search it p (.ok s) ∈ m.trace) :
    PPost env o w0 V bn true X pv ps fs rj (Act.resultPar env it v s ev m) := by
  unfold Act.resultPar
  rw [Act.seq_def]
  have hq := QuietAct.beginIter env it
  have h1 := PPost.quiet (lv := true) h (fun _ => ht) hx hq (Steps.beginIter env it) (Or.inl rfl)
  split
  swap
  · rename_i hc
    exact ⟨h1.good, h1.ex, fun h => absurd h hc, h1.stop, h1.fail⟩
  · rename_i hc
    obtain ⟨a, b⟩ := h1.cont hc
    refine PPost.process a hne (b rfl) h1.ex ?_ fun w m2 h2 hx2 => ?_
    · obtain ⟨i, p, hm⟩ := hs
      obtain ⟨t, ht', _⟩ := (hq.quiet m).tr
      exact ⟨i, p, by rw [ht']; simp [hm]⟩
    · refine (PPost.quiet (lv := false) h2 (fun h => by cases h) hx2 (QuietAct.obsLocal _ ev)
        (Steps.obsLocal env _ ev) (Or.inr (OnlyPanic.never fun _ => rfl))).seq fun m3 h3 _ hx3 => ?_
      refine (PPost.quiet (lv := false) h3 (fun h => by cases h) hx3 (QuietAct.obsIter it)
        (Steps.obsIter env it) (Or.inr (OnlyPanic.never fun _ => rfl))).seq fun m4 h4 _ hx4 => ?_
      refine (PPost.quiet (lv := false) h4 (fun h => by cases h) hx4 (QuietAct.callback env it)
        (Steps.callback env it) (Or.inr (OnlyPanic.callback env it))).seq fun m5 h5 _ hx5 => ?_
      refine (PPost.stopIfTarget h5 hx5).seq fun m6 h6 ht6 hx6 => ?_
      exact PPost.quiet h6 ht6 hx6 (QuietAct.save env) (Steps.save env) (Or.inl rfl)

theorem results_post {ps rj} (rs : List (Nat × F64 × Sol n × Nat)) {m : M n}
    (h : AllInv env o w0 V bn m (rs.map (·.2.1)) ps (rs.map (·.2.2.1)) rj) (hne : o.solset ≠ some [])
    (ht : m.opt.targetReached = false) (hx : examined m.trace = X)
    (hs : ∀ r ∈ rs, ∃ it p, Event.search it p (.ok r.2.2.1) ∈ m.trace) :
    PPost env o w0 V bn true X [] ps [] rj
      (Act.all (rs.map fun r => Act.resultPar env r.1 r.2.1 r.2.2.1 r.2.2.2) m) := by
  induction rs generalizing m with
  | nil => exact PPost.quiet h (fun _ => ht) hx QuietAct.skip (Steps.skip env) (Or.inl rfl)
  | cons r rs ih =>
    rw [List.map_cons]
    unfold Act.all
    have h1 := resultPar_post (it := r.1) (ev := r.2.2.2) h hne ht hx (hs r (by simp))
    rw [Act.seq_def]
    split
    · rename_i hc
      obtain ⟨a, b⟩ := h1.cont hc
      refine ih a (b rfl) h1.ex fun x hx => ?_
      obtain ⟨i, p, hm⟩ := hs x (by simp [hx])
      obtain ⟨t, ht'⟩ := (StepsAfter.resultPar env r.1 r.2.1 r.2.2.1 r.2.2.2 m (hs r (by simp))).trace
      exact ⟨i, p, by rw [ht']; simp [hm]⟩
    · rename_i hc
      exact ⟨h1.good, h1.ex, fun h => absurd h hc, h1.stop, h1.fail⟩

/-- Logging the searches of a group. -/
theorem AllInv.searches {pv fs rj} (c : List (Nat × Pt n × F64)) {m : M n}
    {ps : List (Nat × Pt n)}
    (h : AllInv env o w0 V bn m pv (c.map (fun x => (x.1, x.2.1)) ++ ps) fs rj)
    (hne : o.solset ≠ some []) (ht : m.opt.targetReached = false) :
    AllInv env o w0 V bn { m with trace := m.trace ++ c.map (Act.solveEvent env m.opt) } pv ps
      (fs ++ foundSols (c.map (Act.solveEvent env m.opt))) rj := by
  induction c generalizing m fs with
  | nil => simpa [foundSols] using h
  | cons a c ih =>
    have h1 := h.search hne ht
      ((env.solve m.opt.params.solverType m.opt.params.solverConfig a.2.1).map Prod.fst)
      (Or.inr rfl)
    have h2 := ih (m := { m with trace := m.trace ++ [Act.solveEvent env m.opt a] }) h1 ht
    have e1 : okSol ((env.solve m.opt.params.solverType m.opt.params.solverConfig a.2.1).map Prod.fst) =
        foundSols [Act.solveEvent env m.opt a] := by
      unfold Act.solveEvent
      cases env.solve m.opt.params.solverType m.opt.params.solverConfig a.2.1 <;> rfl
    rw [e1] at h2
    have e2 : fs ++ foundSols [Act.solveEvent env m.opt a] ++
        foundSols (c.map (Act.solveEvent env m.opt)) =
        fs ++ foundSols ((a :: c).map (Act.solveEvent env m.opt)) := by
      rw [List.append_assoc, ← foundSols_append]; rfl
    have e3 : m.trace ++ [Act.solveEvent env m.opt a] ++ c.map (Act.solveEvent env m.opt) =
        m.trace ++ (a :: c).map (Act.solveEvent env m.opt) := by simp
    dsimp only at h2
    rw [e2, e3] at h2
    exact h2

theorem groupPar_post {rj} (k : Nat) (c : List (Nat × Pt n × F64)) {m : M n}
    (h : AllInv env o w0 V bn m (c.map (·.2.2)) (c.map (fun x => (x.1, x.2.1))) [] rj)
    (hne : o.solset ≠ some []) (ht : m.opt.targetReached = false) (hx : examined m.trace = X) :
    PPost env o w0 V bn true X [] [] [] rj (Act.groupPar env k c m) := by
  have h1 := AllInv.searches c (ps := []) (by rw [List.append_nil]; exact h) hne ht
  have hx1 : examined (m.trace ++ c.map (Act.solveEvent env m.opt)) = X := by
    rw [examined_append, hx]
    have : examined (c.map (Act.solveEvent env m.opt)) = [] := by
      unfold examined
      rw [List.filterMap_eq_nil_iff]
      intro e he
      obtain ⟨_, _, rfl⟩ := List.mem_map.1 he
      rfl
    rw [this, List.append_nil]
  unfold Act.groupPar
  split
  · exact ⟨h1.good, hx1, (fun hc => by cases hc), (fun hc => by cases hc), fun _ _ => Or.inl ht⟩
  · rename_i rs hrs
    have hpc := parCollect_ok hrs
    obtain ⟨i1, i2⟩ := foundSols_solveEvents hpc
    have hv : c.map (·.2.2) = rs.map (·.2.1) := by
      clear h h1 hx1 i1 i2 hrs
      induction c generalizing rs with
      | nil =>
        cases rs with
        | nil => rfl
        | cons => simp at hpc
      | cons a c ih =>
        cases rs with
        | nil => simp at hpc
        | cons r rs =>
          rw [List.map_cons, List.map_cons, List.cons.injEq] at hpc
          rw [List.map_cons, List.map_cons, ih _ hpc.2, (solveTask_ok hpc.1).2.2]
    rw [List.nil_append, i1, hv] at h1
    refine results_post rs h1 hne ht hx1 fun r hr => ?_
    obtain ⟨i, p, hm⟩ := i2 r hr
    exact ⟨i, p, by simp [hm]⟩

theorem singlePar_post {v : F64} {pv ps rj} {it : Nat} {p : Pt n} {m : M n}
    (h : AllInv env o w0 V bn m (v :: pv) ((it, p) :: ps) [] rj) (hne : o.solset ≠ some [])
    (ht : m.opt.targetReached = false) (hx : examined m.trace = X) :
    PPost env o w0 V bn true X pv ps [] rj (Act.singlePar env it p v m) := by
  unfold Act.singlePar
  rw [Act.seq_def]
  have hq := QuietAct.beginIter env it
  have h1 := PPost.quiet (lv := true) h (fun _ => ht) hx hq (Steps.beginIter env it) (Or.inl rfl)
  have hc1 := (hq.quiet m).cfg
  split
  swap
  · rename_i hc
    exact ⟨h1.good, h1.ex, fun h => absurd h hc, h1.stop, h1.fail⟩
  · rename_i hc
    obtain ⟨a, b⟩ := h1.cont hc
    refine PPost.search a hne (b rfl) h1.ex hc1.lsType.symm hc1.lsConfig.symm
      fun s ev w m2 h2 hx2 => ?_
    refine (PPost.quiet (lv := false) h2 (fun h => by cases h) hx2 (QuietAct.obsLocal _ ev)
      (Steps.obsLocal env _ ev) (Or.inr (OnlyPanic.never fun _ => rfl))).seq fun m3 h3 _ hx3 => ?_
    refine (PPost.quiet (lv := false) h3 (fun h => by cases h) hx3 (QuietAct.obsIter it)
      (Steps.obsIter env it) (Or.inr (OnlyPanic.never fun _ => rfl))).seq fun m4 h4 _ hx4 => ?_
    refine (PPost.quiet (lv := false) h4 (fun h => by cases h) hx4 (QuietAct.invoke env _)
      (Steps.invoke env _) (Or.inr (OnlyPanic.never (invoke_cont env _)))).seq fun m5 h5 _ hx5 => ?_
    refine (PPost.stopIfTarget h5 hx5).seq fun m6 h6 ht6 hx6 => ?_
    exact PPost.quiet h6 ht6 hx6 (QuietAct.save env) (Steps.save env) (Or.inl rfl)

theorem singles_post {rj} (c : List (Nat × Pt n × F64)) {m : M n}
    (h : AllInv env o w0 V bn m (c.map (·.2.2)) (c.map (fun x => (x.1, x.2.1))) [] rj)
    (hne : o.solset ≠ some []) (ht : m.opt.targetReached = false) (hx : examined m.trace = X) :
    PPost env o w0 V bn true X [] [] [] rj
      (Act.all (c.map fun c => Act.singlePar env c.1 c.2.1 c.2.2) m) := by
  induction c generalizing m with
  | nil => exact PPost.quiet h (fun _ => ht) hx QuietAct.skip (Steps.skip env) (Or.inl rfl)
  | cons a c ih =>
    rw [List.map_cons]
    unfold Act.all
    exact (singlePar_post h hne ht hx).seq fun m1 h1 ht1 hx1 => ih h1 (ht1 rfl) hx1

theorem localsPar_post {rj} (k : Nat) (c : List (Nat × Pt n × F64)) {m : M n}
    (h : AllInv env o w0 V bn m (c.map (·.2.2)) (c.map (fun x => (x.1, x.2.1))) [] rj)
    (hne : o.solset ≠ some []) (ht : m.opt.targetReached = false) (hx : examined m.trace = X) :
    PPost env o w0 V bn true X [] [] [] rj (Act.localsPar env k c m) := by
  unfold Act.localsPar
  split
  · exact groupPar_post k c h hne ht hx
  · exact singles_post c h hne ht hx

/-- Logging the examinations of a batch. -/
theorem AllInv.examines {b : Nat} (vals : List (Nat × Pt n × F64)) {m : M n} {pv ps rj}
    (h : AllInv env o w0 V bn m pv ps [] rj) (hne : o.solset ≠ some [])
    (ht : m.opt.targetReached = false) (hV : ∀ c ∈ vals, V c.1 c.2.1 c.2.2)
    (hbn : ∀ c ∈ vals, bn c.1 = b) (hsort : (vals.map (·.1)).Pairwise (· < ·))
    (hnew : ∀ x ∈ (examined m.trace).map Prod.fst, ∀ c ∈ vals, x < c.1)
    (hb : AtBatch w0 bn b m) :
    AllInv env o w0 V bn { m with trace := (m.trace ++
        vals.map (fun c => Event.examine c.1 c.2.1 c.2.2 (Act.passes m.opt c))) }
      (pv ++ (vals.filter (Act.passes m.opt)).map (·.2.2))
      (ps ++ (vals.filter (Act.passes m.opt)).map (fun x => (x.1, x.2.1))) []
      (rj ++ (vals.filter fun c => !Act.passes m.opt c).map (·.1)) := by
  induction vals generalizing m pv ps rj with
  | nil => simpa using h
  | cons a vals ih =>
    have hba := hbn a (by simp)
    obtain ⟨h1, h2⟩ := h.examine hne ht a.1 a.2.1 a.2.2 (Act.passes m.opt a) rfl (hV a (by simp))
      (fun x hx => hnew x hx a (by simp)) (by rw [hba]; exact hb)
    rw [hba] at h2
    rw [List.map_cons, List.pairwise_cons] at hsort
    have h3 := ih (m := { m with trace := m.trace ++
        [.examine a.1 a.2.1 a.2.2 (Act.passes m.opt a)] }) h1 ht
      (fun c hc => hV c (by simp [hc])) (fun c hc => hbn c (by simp [hc])) hsort.2
      (by
        intro x hx c hc
        have hx' : x ∈ (examined m.trace ++ [(a.1, a.2.1)]).map Prod.fst := by
          have : examined (m.trace ++ [.examine a.1 a.2.1 a.2.2 (Act.passes m.opt a)]) =
              examined m.trace ++ [(a.1, a.2.1)] := by rw [examined_append]; rfl
          rw [← this]; exact hx
        rw [List.map_append, List.mem_append] at hx'
        rcases hx' with hx' | hx'
        · exact hnew x hx' c (by simp [hc])
        · have : x = a.1 := by simpa using hx'
          rw [this]
          exact hsort.1 c.1 (List.mem_map.2 ⟨c, hc, rfl⟩)) h2
    dsimp only at h3
    rw [List.append_assoc] at h3
    cases hp : Act.passes m.opt a
    · rw [hp] at h3
      simpa [hp] using h3
    · rw [hp] at h3
      simpa [hp] using h3

/-- What is needed at the start of the batch `its` with number `b`. -/
structure BatchStart (env : Env n) (o : Opt n) (w0 : Nat) (V : Nat → Pt n → F64 → Prop) (bn : Nat → Nat)
    (objs : Option (List F64)) (b : Nat) (its : List (Nat × Pt n)) (m : M n) : Prop where
  inv : AllInv env o w0 V bn m [] [] [] []
  target : m.opt.targetReached = false
  value : ∀ it ∈ its, ∀ v, Act.meritValue o objs it.1 it.2 = .ok v → V it.1 it.2 v
  number : ∀ it ∈ its, bn it.1 = b
  sorted : (its.map Prod.fst).Pairwise (· < ·)
  later : ∀ x ∈ (examined m.trace).map Prod.fst, ∀ it ∈ its, x < it.1
  earlier : ∀ x ∈ (examined m.trace).map Prod.fst, bn x < b

theorem passed_examined (tr : List (Event n)) : ∀ x ∈ passed tr, x ∈ examined tr := by
  intro x hx
  unfold passed at hx
  rw [List.mem_filterMap] at hx
  obtain ⟨e, he, hq⟩ := hx
  unfold examined
  rw [List.mem_filterMap]
  refine ⟨e, he, ?_⟩
  cases e with
  | examine it p v ok =>
    cases ok
    · cases hq
    · exact hq
  | _ => cases hq

theorem BatchStart.at {objs : Option (List F64)} {b : Nat} {its : List (Nat × Pt n)} {m : M n}
    (h : BatchStart env o w0 V bn objs b its m) : AtBatch w0 bn b m := by
  constructor
  · have hs := h.inv.srch
    rw [List.append_nil] at hs
    rw [hs, List.filter_eq_self.2]
    intro x hx
    exact decide_eq_true (h.earlier _ (List.mem_map.2 ⟨x, passed_examined _ x hx, rfl⟩))
  · obtain ⟨D, d1, d2, _⟩ := h.inv.wait
    rw [List.append_nil] at d1
    unfold rejections
    rw [List.filter_eq_self.2, d1, d2]
    intro x hx
    exact decide_eq_true (h.earlier _ (h.inv.pend x hx))

theorem BatchStart.quiet {objs : Option (List F64)} {b : Nat} {its : List (Nat × Pt n)} {m m' : M n}
    (h : BatchStart env o w0 V bn objs b its m) (q : Quiet m m') (hr : Reach env m m') :
    BatchStart env o w0 V bn objs b its m' :=
  ⟨h.inv.quiet q hr, q.target.trans h.target, h.value, h.number, h.sorted,
    by rw [q.examined]; exact h.later, by rw [q.examined]; exact h.earlier⟩

/-- Result of a batch. -/
structure BPost (env : Env n) (o : Opt n) (w0 : Nat) (V : Nat → Pt n → F64 → Prop) (bn : Nat → Nat)
    (m : M n) (its : List (Nat × Pt n)) (r : M n × Out) : Prop where
  good : MeetRun env o w0 V bn r.1
  cont : r.2 = .cont → AllInv env o w0 V bn r.1 [] [] [] [] ∧ r.1.opt.targetReached = false ∧
    examined r.1.trace = examined m.trace ++ its
  stop : r.2 = .stop → r.1.opt.targetReached = true ∧
    ∃ pv ps fs rj, AllInv env o w0 V bn r.1 pv ps fs rj
  pref : ∃ k, examined r.1.trace = examined m.trace ++ its.take k
  fail : ∀ e, r.2 = .fail e → r.1.opt.targetReached = false ∨ (∃ c, e = .checkpoint c) ∨
    (e = .panic ∧ ZeroFrequency r.1.opt)

theorem PPost.batch {its : List (Nat × Pt n)} {m : M n} {r : M n × Out}
    (h : PPost env o w0 V bn true (examined m.trace ++ its) [] [] [] [] r) :
    BPost env o w0 V bn m its r :=
  ⟨h.good, fun hc => ⟨(h.cont hc).1, (h.cont hc).2 rfl, h.ex⟩, h.stop,
    ⟨its.length, by rw [h.ex, List.take_length]⟩, h.fail⟩

theorem evalTask_value {o : Opt n} {objs : Option (List F64)} {it : Nat × Pt n} {c : Nat × Pt n × F64}
    (h : Act.evalTask o objs it = .ok c) : Act.meritValue o objs c.1 c.2.1 = .ok c.2.2 := by
  unfold Act.evalTask at h
  cases hm : Act.meritValue o objs it.1 it.2 with
  | error e => rw [hm] at h; cases h
  | ok v => rw [hm] at h; cases h; exact hm

theorem evalTasks_points {o : Opt n} {objs : Option (List F64)} {its : List (Nat × Pt n)}
    {vals : List (Nat × Pt n × F64)} (h : its.map (Act.evalTask o objs) = vals.map Except.ok) :
    vals.map (fun c => (c.1, c.2.1)) = its ∧
    ∀ c ∈ vals, Act.meritValue o objs c.1 c.2.1 = .ok c.2.2 := by
  induction its generalizing vals with
  | nil =>
    cases vals with
    | nil => exact ⟨rfl, fun _ h => by cases h⟩
    | cons => simp at h
  | cons a its ih =>
    cases vals with
    | nil => simp at h
    | cons c vals =>
      rw [List.map_cons, List.map_cons, List.cons.injEq] at h
      obtain ⟨i1, i2⟩ := ih h.2
      refine ⟨by rw [List.map_cons, i1, evalTask_ok h.1], ?_⟩
      intro x hx
      rw [List.mem_cons] at hx
      rcases hx with rfl | hx
      · exact evalTask_value h.1
      · exact i2 x hx

theorem batchParItems_post {objs : Option (List F64)} {b : Nat} {its : List (Nat × Pt n)} {m : M n}
    (h : BatchStart env o w0 V bn objs b its m) (hne : o.solset ≠ some []) :
    BPost env o w0 V bn m its (Act.batchParItems env objs its m) := by
  cases its with
  | nil =>
    have hx : examined m.trace = examined m.trace ++ [] := (List.append_nil _).symm
    exact ⟨h.inv.good, fun _ => ⟨h.inv, h.target, hx⟩, (fun hc => by cases hc), ⟨0, hx⟩,
      (fun _ hc => by cases hc)⟩
  | cons it0 its =>
    unfold Act.batchParItems
    dsimp only
    have q1 : Quiet m (Act.logEvals objs (it0 :: its) m) := by
      unfold Act.logEvals
      split
      · refine ⟨⟨_, rfl, ?_⟩, rfl, rfl, rfl, rfl, SameCfg.refl _, fun t ht it c hm => ?_⟩
        · intro e he
          obtain ⟨_, _, rfl⟩ := List.mem_map.1 he
          rfl
        · rw [← List.append_cancel_left ht] at hm
          obtain ⟨_, _, hq⟩ := List.mem_map.1 hm
          cases hq
      · exact Quiet.refl _
    have r1 : Reach env m (Act.logEvals objs (it0 :: its) m) := by
      unfold Act.logEvals
      split
      · apply reach_logs
        · intro e he
          obtain ⟨_, _, rfl⟩ := List.mem_map.1 he
          rfl
        · intro e he
          obtain ⟨_, _, rfl⟩ := List.mem_map.1 he
          trivial
      · exact ReflTransGen.refl
    have h1 := h.quiet q1 r1
    have hx1 := q1.examined
    have hpr : m.opt.problem = o.problem := (h.inv.hist hne).cfg.problem
    split
    · exact ⟨h1.inv.good, (fun hc => by cases hc), (fun hc => by cases hc),
        ⟨0, by rw [hx1]; simp⟩, fun _ _ => Or.inl h1.target⟩
    · rename_i vals hvals
      obtain ⟨p1, p2⟩ := evalTasks_points (parCollect_ok hvals)
      generalize Act.logEvals objs (it0 :: its) m = m1 at h1 hx1
      have hmem : ∀ c ∈ vals, (c.1, c.2.1) ∈ it0 :: its := by
        intro c hc
        rw [← p1]
        exact List.mem_map.2 ⟨c, hc, rfl⟩
      have hmv : ∀ c ∈ vals, V c.1 c.2.1 c.2.2 := by
        intro c hc
        refine h1.value _ (hmem c hc) _ ?_
        have := p2 c hc
        unfold Act.meritValue at this ⊢
        rw [hpr] at this
        exact this
      have hfst : vals.map (·.1) = (it0 :: its).map Prod.fst := by
        rw [← p1, List.map_map]; rfl
      have h2 := AllInv.examines (b := b) vals h1.inv hne h1.target hmv
        (fun c hc => h1.number _ (hmem c hc)) (by rw [hfst]; exact h1.sorted)
        (fun x hx c hc => h1.later x hx _ (hmem c hc)) h1.at
      simp only [List.nil_append] at h2
      have hx2 : examined (m1.trace ++ vals.map fun c =>
          Event.examine c.1 c.2.1 c.2.2 (Act.passes m1.opt c)) = examined m.trace ++ (it0 :: its) := by
        rw [examined_append, hx1, ← p1]
        congr 1
        unfold examined
        rw [List.filterMap_map]
        exact List.filterMap_eq_map (f := fun c : Nat × Pt n × F64 => (c.1, c.2.1)) ▸ rfl
      apply PPost.batch
      unfold Act.afterEval
      have hq : QuietAct (if objs.isNone = true then Act.obsEvals (n := n) vals.length else Act.skip) := by
        split
        · exact QuietAct.obsEvals _
        · exact QuietAct.skip
      have hs : Steps env (if objs.isNone = true then Act.obsEvals (n := n) vals.length else Act.skip) := by
        split
        · exact Steps.obsEvals env _
        · exact Steps.skip env
      refine (PPost.quiet (lv := true) h2 (fun _ => h1.target) hx2 hq hs (Or.inl rfl)).seq
        fun m3 h3 ht3 hx3 => ?_
      refine (quicks_post (fun c : Nat × Pt n × F64 => c.1) _ h3 hne (ht3 rfl) hx3).seq fun m4 h4 ht4 hx4 => ?_
      exact localsPar_post _ _ h4 hne (ht4 rfl) hx4

/-! ### Sequential batches of one iteration -/

theorem stepSeq_post' {objs : Option (List F64)} {b : Nat} {it : Nat × Pt n} {m : M n}
    (h : BatchStart env o w0 V bn objs b [it] m) (hne : o.solset ≠ some []) (r : Bool) (st : Nat)
    (hskip : (r && it.1 < st) = false) :
    BPost env o w0 V bn m [it] (Act.stepSeq env r st objs it m) := by
  unfold Act.stepSeq
  rw [if_neg (by rw [hskip]; simp)]
  have key : ∀ (a c : Act n) (m1 : M n), BatchStart env o w0 V bn objs b [it] m1 →
      examined m1.trace = examined m.trace → QuietAct a → Steps env a →
      (∀ m2, BatchStart env o w0 V bn objs b [it] m2 → examined m2.trace = examined m.trace →
        BPost env o w0 V bn m [it] (c m2)) → BPost env o w0 V bn m [it] ((a ;; c) m1) := by
    intro a c m1 h1 hx1 ha hs hc
    rw [Act.seq_def]
    have q := ha.quiet m1
    split
    · exact hc _ (h1.quiet q (hs m1)) (q.examined.trans hx1)
    · rename_i hnc
      have h2 := h1.quiet q (hs m1)
      exact ⟨h2.inv.good, fun h => absurd h hnc, fun h => absurd h (ha.nostop m1),
        ⟨0, by rw [q.examined, hx1]; simp⟩, fun _ _ => Or.inl h2.target⟩
  refine key _ _ m h rfl (QuietAct.beginIter env _) (Steps.beginIter env _) fun m1 h1 hx1 => ?_
  refine key _ _ m1 h1 hx1 (QuietAct.obsIter _) (Steps.obsIter env _) fun m2 h2 hx2 => ?_
  unfold Act.getMerit
  dsimp only
  have q3 : Quiet m2 (if objs.isNone = true then
      { m2 with trace := m2.trace ++ [.evaluate it.1 it.2] } else m2) := by
    split
    · exact quiet_log m2 _ rfl
    · exact Quiet.refl _
  have r3 : Reach env m2 (if objs.isNone = true then
      { m2 with trace := m2.trace ++ [.evaluate it.1 it.2] } else m2) := by
    split
    · exact reach_log env m2 _ rfl trivial
    · exact ReflTransGen.refl
  have h3 := h2.quiet q3 r3
  have hx3 := q3.examined.trans hx2
  have hmv : Act.meritValue m2.opt objs it.1 it.2 = Act.meritValue o objs it.1 it.2 := by
    unfold Act.meritValue
    rw [(h2.inv.hist hne).cfg.problem]
  rw [hmv]
  generalize (if objs.isNone = true then
      { m2 with trace := m2.trace ++ [.evaluate it.1 it.2] } else m2) = m3 at h3 hx3
  split
  · exact ⟨h3.inv.good, (fun hc => by cases hc), (fun hc => by cases hc), ⟨0, by rw [hx3]; simp⟩,
      fun _ _ => Or.inl h3.target⟩
  · rename_i v hv
    have hqa : QuietAct (if objs.isNone = true then Act.obsEvals (n := n) 1 else Act.skip) := by
      split
      · exact QuietAct.obsEvals 1
      · exact QuietAct.skip
    have hsa : Steps env (if objs.isNone = true then Act.obsEvals (n := n) 1 else Act.skip) := by
      split
      · exact Steps.obsEvals env 1
      · exact Steps.skip env
    refine key _ _ m3 h3 hx3 hqa hsa fun m4 h4 hx4 => ?_
    apply PPost.batch
    rw [Act.seq_def]
    rw [show (Act.log (n := n) _ _).2 = .cont from rfl, if_pos rfl]
    have hse : ∀ b, Act.log (.examine it.1 it.2 v b) m4 =
      ({ m4 with trace := m4.trace ++ [.examine it.1 it.2 v b] }, .cont) := fun _ => rfl
    rw [hse]
    dsimp only
    have hx5 : ∀ b, examined (m4.trace ++ [.examine it.1 it.2 v b]) = examined m.trace ++ [it] := by
      intro b
      rw [examined_append, hx4]; rfl
    have h5 := (h4.inv.examine hne h4.target it.1 it.2 v _ rfl (h4.value it (by simp) v hv)
      (fun x hx => h4.later x hx it (by simp)) (by rw [h4.number it (by simp)]; exact h4.at)).1
    have htl : ∀ m6, AllInv env o w0 V bn m6 [] [] [] [] →
        (true = true → m6.opt.targetReached = false) → examined m6.trace = examined m.trace ++ [it] →
        PPost env o w0 V bn true (examined m.trace ++ [it]) [] [] [] []
          ((Act.callback env it.1 ;; Act.save env) m6) := fun m6 h6 ht6 hx6 =>
      PPost.quiet h6 ht6 hx6 ((QuietAct.callback env _).seq (QuietAct.save env))
        ((Steps.callback env _).seq (Steps.save env)) (Or.inl rfl)
    cases hs : m4.opt.shouldStart it.2 v
    · rw [hs] at h5
      simp only [Bool.false_eq_true, if_false, List.nil_append] at h5 ⊢
      obtain ⟨a, b, c, d⟩ := h5.reject hne
      refine PPost.seq (lv := true) ⟨a.good, d.trans (hx5 false), fun _ => ⟨a, fun _ => c.trans h4.target⟩,
        (fun hc => by rw [b] at hc; cases hc), (fun e hc => by rw [b] at hc; cases hc)⟩ htl
    · rw [hs] at h5
      simp only [if_true, List.nil_append] at h5 ⊢
      refine PPost.seq (lv := true) ?_ htl
      unfold Act.localSeq
      refine PPost.search h5 hne h4.target (hx5 true) rfl rfl fun s ev w m7 h7 hx7 => ?_
      refine (PPost.quiet (lv := false) h7 (fun h => by cases h) hx7 (QuietAct.obsLocal _ ev)
        (Steps.obsLocal env _ ev) (Or.inr (OnlyPanic.never fun _ => rfl))).seq fun m8 h8 _ hx8 => ?_
      exact PPost.stopIfTarget h8 hx8

end GS
