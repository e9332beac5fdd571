/- In every run, sequential or parallel, a local search starts far from the solutions of all earlier
batches. -/
import Verif.Lemmas.RecordPar
import Verif.Lemmas.Count

namespace GS
open F64
variable {n : Nat}

/-! ### Solutions are recorded by the end of a batch -/

/-- As `Rec`, for executions that go on normally. -/
def RecC (a : Act n) : Prop := ∀ m, foundSols m.trace = procs m.trace → (a m).2 = .cont →
  foundSols (a m).1.trace = procs (a m).1.trace

theorem Rec.recC {a : Act n} (h : Rec a) : RecC a := fun m hm _ => h m hm

theorem RecC.seq {a b : Act n} (ha : RecC a) (hb : RecC b) : RecC (a ;; b) := by
  intro m h
  rw [Act.seq_def]
  split
  · rename_i hc
    exact hb _ (ha m h hc)
  · rename_i hc
    exact fun h => absurd h hc

theorem results_recorded_cont {env : Env n} (rs : List (Nat × F64 × Sol n × Nat)) (m : M n)
    (h : foundSols m.trace = procs m.trace ++ rs.map (·.2.2.1))
    (hc : (Act.all (rs.map fun r => Act.resultPar env r.1 r.2.1 r.2.2.1 r.2.2.2) m).2 = .cont) :
    foundSols (Act.all (rs.map fun r => Act.resultPar env r.1 r.2.1 r.2.2.1 r.2.2.2) m).1.trace =
      procs (Act.all (rs.map fun r => Act.resultPar env r.1 r.2.1 r.2.2.1 r.2.2.2) m).1.trace := by
  induction rs generalizing m with
  | nil => simpa [Act.all, Act.skip] using h
  | cons r rs ih =>
    rw [List.map_cons] at hc ⊢
    unfold Act.all at hc ⊢
    rw [Act.seq_def] at hc ⊢
    split at hc
    · rename_i hc1
      rw [if_pos hc1]
      obtain ⟨k1, k2, _⟩ := resultPar_adds env r.1 r.2.1 r.2.2.1 r.2.2.2 m
        (by rw [hc1]; exact Out.ok_cont)
      refine ih _ ?_ hc
      rw [k1, k2, h]; simp
    · rename_i hc1
      exact absurd hc hc1

theorem RecC.groupPar (env : Env n) (k : Nat) (c : List (Nat × Pt n × F64)) :
    RecC (Act.groupPar env k c) := by
  intro m h
  unfold Act.groupPar
  split
  · intro h2; cases h2
  · rename_i rs hrs
    obtain ⟨i1, i2⟩ := foundSols_solveEvents (parCollect_ok hrs)
    intro h1
    refine results_recorded_cont rs _ ?_ h1
    show foundSols (_ ++ _) = procs (_ ++ _) ++ _
    rw [foundSols_append, procs_append, h, i1, procs_solveEvents, List.append_nil]

theorem RecC.localsPar (env : Env n) (k : Nat) (c : List (Nat × Pt n × F64)) :
    RecC (Act.localsPar env k c) := by
  intro m
  unfold Act.localsPar
  split
  · exact RecC.groupPar env k c m
  · exact (Rec.all c (fun c => Act.singlePar env c.1 c.2.1 c.2.2)
      fun x _ => Rec.singlePar env _ _ _).recC m

theorem RecC.afterEval (env : Env n) (objs : Option (List F64)) (k : Nat)
    (vals : List (Nat × Pt n × F64)) : RecC (Act.afterEval env objs k vals) := by
  intro m h
  unfold Act.afterEval
  have h2 : Rec (if objs.isNone = true then Act.obsEvals (n := n) vals.length else Act.skip) := by
    split
    · exact (QuietAct.obsEvals _).record
    · exact QuietAct.skip.record
  have hq := Rec.all (vals.filter fun c => !Act.passes m.opt c) (fun c => Act.quickPar env c.1)
    fun x _ => Rec.quickPar env x.1
  refine RecC.seq h2.recC (RecC.seq hq.recC (RecC.localsPar env k _)) _ ?_
  refine Rec.logs ?_ ?_ h
  · unfold foundSols
    rw [List.filterMap_eq_nil_iff]
    intro e he
    rw [List.mem_map] at he
    obtain ⟨_, _, rfl⟩ := he
    rfl
  · unfold procs
    rw [List.filterMap_eq_nil_iff]
    intro e he
    rw [List.mem_map] at he
    obtain ⟨_, _, rfl⟩ := he
    rfl

theorem RecC.batchParItems (env : Env n) (objs : Option (List F64)) (its : List (Nat × Pt n)) :
    RecC (Act.batchParItems env objs its) := by
  cases its with
  | nil => exact QuietAct.skip.record.recC
  | cons it0 its =>
    intro m h
    unfold Act.batchParItems
    dsimp only
    split
    · intro h2; cases h2
    · refine RecC.afterEval env objs it0.1 _ _ ?_
      unfold Act.logEvals
      split
      · refine Rec.logs ?_ ?_ h
        · unfold foundSols
          rw [List.filterMap_eq_nil_iff]
          intro e he
          rw [List.mem_map] at he
          obtain ⟨_, _, rfl⟩ := he
          rfl
        · unfold procs
          rw [List.filterMap_eq_nil_iff]
          intro e he
          rw [List.mem_map] at he
          obtain ⟨_, _, rfl⟩ := he
          rfl
      · exact h

theorem RecC.procBatch (env : Env n) (r : Bool) (st : Nat) (objs : Option (List F64)) (eff : Nat)
    (b : List (Nat × Pt n)) : RecC (Act.procBatch env r st objs eff b) := by
  unfold Act.procBatch
  split
  · exact RecC.batchParItems env objs _
  · exact (Rec.batchSeq env r st objs b).recC

/-! ### An early return means that the target is reached -/

def Stp (a : Act n) : Prop := ∀ m, (a m).2 = .stop → (a m).1.opt.targetReached = true

theorem Stp.seq {a b : Act n} (ha : Stp a) (hb : Stp b) : Stp (a ;; b) := by
  intro m
  rw [Act.seq_def]
  split
  · exact hb _
  · exact ha m

theorem QuietAct.stp {a : Act n} (h : QuietAct a) : Stp a := fun m hs => absurd hs (h.nostop m)

theorem Stp.never {a : Act n} (h : ∀ m, (a m).2 ≠ .stop) : Stp a := fun m hs => absurd hs (h m)

theorem Stp.all {α : Type} (l : List α) (g : α → Act n) (h : ∀ a ∈ l, Stp (g a)) :
    Stp (Act.all (l.map g)) := by
  induction l with
  | nil => exact QuietAct.skip.stp
  | cons a l ih => exact (h a (by simp)).seq (ih fun x hx => h x (by simp [hx]))

theorem Stp.stopIfTarget : Stp (Act.stopIfTarget (n := n)) := by
  intro m
  unfold Act.stopIfTarget
  dsimp only
  split
  · intro _; assumption
  · intro h; cases h

theorem Stp.setThreshold (v : F64) : Stp (Act.setThreshold (n := n) v) :=
  Stp.never fun _ h => by cases h

theorem Stp.log (e : Event n) : Stp (Act.log e) := Stp.never fun _ h => by cases h

theorem Stp.reject (i : Nat) : Stp (Act.reject (n := n) i) := by
  apply Stp.never
  intro m
  unfold Act.reject
  split <;> exact fun h => by cases h

theorem Stp.process {s : Sol n} {k : Verdict → Act n} (hk : ∀ v, Stp (k v)) :
    Stp (Act.process s k) := by
  intro m
  unfold Act.process
  dsimp only
  split
  · intro h; cases h
  · exact hk _ _

theorem Stp.search {env : Env n} {ty : SolverType} {cfg : SolverConfig} {iter : Option Nat}
    {p : Pt n} {k : Sol n → Nat → Act n} (hk : ∀ s e, Stp (k s e)) :
    Stp (Act.search env ty cfg iter p k) := by
  intro m
  unfold Act.search
  split
  · intro h; cases h
  · exact hk _ _ _

theorem Stp.resultPar (env : Env n) (i : Nat) (v : F64) (s : Sol n) (e : Nat) :
    Stp (Act.resultPar env i v s e) :=
  (QuietAct.beginIter env i).stp.seq ((Stp.setThreshold v).seq (Stp.process fun _ =>
    (QuietAct.obsLocal _ _).stp.seq ((QuietAct.obsIter i).stp.seq ((QuietAct.callback env i).stp.seq
      (Stp.stopIfTarget.seq (QuietAct.save env).stp)))))

theorem Stp.singlePar (env : Env n) (i : Nat) (p : Pt n) (v : F64) : Stp (Act.singlePar env i p v) := by
  intro m
  unfold Act.singlePar
  exact ((QuietAct.beginIter env i).stp.seq ((Stp.setThreshold v).seq (Stp.search fun s e =>
    Stp.process fun _ => (QuietAct.obsLocal _ _).stp.seq ((QuietAct.obsIter i).stp.seq
      ((QuietAct.invoke env _).stp.seq (Stp.stopIfTarget.seq (QuietAct.save env).stp)))))) m

theorem Stp.quickPar (env : Env n) (i : Nat) : Stp (Act.quickPar env i) :=
  (QuietAct.beginIter env i).stp.seq ((Stp.reject i).seq ((QuietAct.obsIter i).stp.seq
    ((QuietAct.callback env i).stp.seq (QuietAct.save env).stp)))

theorem Stp.localsPar (env : Env n) (k : Nat) (c : List (Nat × Pt n × F64)) :
    Stp (Act.localsPar env k c) := by
  intro m
  unfold Act.localsPar
  split
  · unfold Act.groupPar
    split
    · intro h; cases h
    · exact Stp.all _ (fun r : Nat × F64 × Sol n × Nat => Act.resultPar env r.1 r.2.1 r.2.2.1 r.2.2.2)
        (fun r _ => Stp.resultPar env _ _ _ _) _
  · exact Stp.all c (fun c => Act.singlePar env c.1 c.2.1 c.2.2) (fun _ _ => Stp.singlePar env _ _ _) m

theorem Stp.batchParItems (env : Env n) (objs : Option (List F64)) (its : List (Nat × Pt n)) :
    Stp (Act.batchParItems env objs its) := by
  cases its with
  | nil => exact QuietAct.skip.stp
  | cons it0 its =>
    intro m
    unfold Act.batchParItems
    dsimp only
    split
    · intro h; cases h
    · unfold Act.afterEval
      refine Stp.seq ?_ (Stp.seq (Stp.all _ _ fun _ _ => Stp.quickPar env _) (Stp.localsPar env _ _)) _
      split
      · exact (QuietAct.obsEvals _).stp
      · exact QuietAct.skip.stp

theorem Stp.stepSeq (env : Env n) (r : Bool) (st : Nat) (objs : Option (List F64)) (it : Nat × Pt n) :
    Stp (Act.stepSeq env r st objs it) := by
  unfold Act.stepSeq
  split
  · exact QuietAct.skip.stp
  · refine (QuietAct.beginIter env _).stp.seq ((QuietAct.obsIter _).stp.seq ?_)
    intro m
    unfold Act.getMerit
    dsimp only
    split
    · intro h; cases h
    · rename_i v _
      refine Stp.seq ?_ ?_ _
      · split
        · exact (QuietAct.obsEvals 1).stp
        · exact QuietAct.skip.stp
      · intro m2
        refine (Stp.log _).seq (Stp.seq ?_ ((QuietAct.callback env _).stp.seq (QuietAct.save env).stp)) m2
        split
        · intro m3
          unfold Act.localSeq
          exact ((Stp.setThreshold v).seq (Stp.search fun s e => Stp.process fun _ =>
            (QuietAct.obsLocal _ _).stp.seq Stp.stopIfTarget)) m3
        · exact Stp.reject _

theorem Stp.procBatch (env : Env n) (r : Bool) (st : Nat) (objs : Option (List F64)) (eff : Nat)
    (b : List (Nat × Pt n)) : Stp (Act.procBatch env r st objs eff b) := by
  unfold Act.procBatch
  split
  · exact Stp.batchParItems env objs _
  · exact Stp.all b _ fun it _ => Stp.stepSeq env r st objs it

/-! ### The searches of a batch start from points that pass the filter at its beginning -/

/-- From the given state the action starts searches only from points of `S`. -/
def LocAt (S : Nat → Pt n → Prop) (a : Act n) (m : M n) : Prop :=
  ∃ t, (a m).1.trace = m.trace ++ t ∧
    ∀ i p r, Event.search i p r ∈ t → ∃ j, i = some j ∧ S j p

theorem LocAt.seq {S : Nat → Pt n → Prop} {a b : Act n} {m : M n} (ha : LocAt S a m)
    (hb : ∀ m, LocAt S b m) : LocAt S (a ;; b) m := by
  unfold LocAt at *
  rw [Act.seq_def]
  obtain ⟨t, h1, h2⟩ := ha
  split
  · obtain ⟨t', k1, k2⟩ := hb (a m).1
    refine ⟨t ++ t', by rw [k1, h1, List.append_assoc], fun i p r h => ?_⟩
    rw [List.mem_append] at h
    rcases h with h | h
    · exact h2 i p r h
    · exact k2 i p r h
  · exact ⟨t, h1, h2⟩

/-- Actions that start no search. -/
def NoSearch (a : Act n) : Prop := ∀ m, ∃ t, (a m).1.trace = m.trace ++ t ∧
    ∀ i p r, Event.search i p r ∉ t

theorem NoSearch.loc {a : Act n} (h : NoSearch a) (S : Nat → Pt n → Prop) (m : M n) : LocAt S a m := by
  obtain ⟨t, h1, h2⟩ := h m
  exact ⟨t, h1, fun i p r hm => absurd hm (h2 i p r)⟩

theorem QuietAct.noSearch {a : Act n} (h : QuietAct a) : NoSearch a := by
  intro m
  obtain ⟨t, h1, h2⟩ := (h.quiet m).tr
  refine ⟨t, h1, fun i p r hm => ?_⟩
  have := h2 _ hm
  cases this

theorem NoSearch.seq {a b : Act n} (ha : NoSearch a) (hb : NoSearch b) : NoSearch (a ;; b) := by
  intro m
  rw [Act.seq_def]
  obtain ⟨t, h1, h2⟩ := ha m
  split
  · obtain ⟨t', k1, k2⟩ := hb (a m).1
    refine ⟨t ++ t', by rw [k1, h1, List.append_assoc], fun i p r h => ?_⟩
    rw [List.mem_append] at h
    rcases h with h | h
    · exact h2 i p r h
    · exact k2 i p r h
  · exact ⟨t, h1, h2⟩

theorem NoSearch.same {a : Act n} (h : ∀ m, (a m).1.trace = m.trace) : NoSearch a :=
  fun m => ⟨[], by rw [h m, List.append_nil], fun _ _ _ h => by cases h⟩

theorem NoSearch.reject (i : Nat) : NoSearch (Act.reject (n := n) i) := by
  intro m
  unfold Act.reject
  split
  · exact ⟨[_], rfl, fun i p r h => by simp at h⟩
  · exact ⟨[], by simp, fun i p r h => by cases h⟩

theorem NoSearch.process {s : Sol n} {k : Verdict → Act n} (hk : ∀ v, NoSearch (k v)) :
    NoSearch (Act.process s k) := by
  intro m
  unfold Act.process
  dsimp only
  split
  · exact ⟨[_], rfl, fun i p r h => by simp at h⟩
  · obtain ⟨t, h1, h2⟩ := hk (m.opt.process s).2
      { m with opt := (m.opt.process s).1, trace := m.trace ++ [.processed s (m.opt.process s).2] }
    refine ⟨.processed s (m.opt.process s).2 :: t, by rw [h1]; simp, fun i p r h => ?_⟩
    rw [List.mem_cons] at h
    rcases h with h | h
    · cases h
    · exact h2 i p r h

theorem NoSearch.all {α : Type} (l : List α) (g : α → Act n) (h : ∀ a ∈ l, NoSearch (g a)) :
    NoSearch (Act.all (l.map g)) := by
  induction l with
  | nil => exact QuietAct.skip.noSearch
  | cons a l ih => exact (h a (by simp)).seq (ih fun x hx => h x (by simp [hx]))

theorem LocAt.all {S : Nat → Pt n → Prop} {α : Type} (l : List α) (g : α → Act n)
    (h : ∀ a ∈ l, ∀ m, LocAt S (g a) m) (m : M n) : LocAt S (Act.all (l.map g)) m := by
  induction l generalizing m with
  | nil => exact QuietAct.skip.noSearch.loc S m
  | cons a l ih => exact (h a (by simp) m).seq (ih fun x hx => h x (by simp [hx]))

theorem LocAt.search {S : Nat → Pt n → Prop} {env : Env n} {ty : SolverType} {cfg : SolverConfig}
    {iter : Nat} {p : Pt n} {k : Sol n → Nat → Act n} (hS : S iter p) (hk : ∀ s e, NoSearch (k s e))
    (m : M n) : LocAt S (Act.search env ty cfg (some iter) p k) m := by
  unfold LocAt Act.search
  split
  · refine ⟨[_], rfl, fun i q r h => ?_⟩
    simp only [List.mem_singleton, Event.search.injEq] at h
    obtain ⟨rfl, rfl, _⟩ := h
    exact ⟨iter, rfl, hS⟩
  · rename_i s evals _
    obtain ⟨t, h1, h2⟩ := hk s (if m.opt.tracks2 then evals else 0)
      { m with trace := m.trace ++ [.search (some iter) p (.ok s)] }
    refine ⟨.search (some iter) p (.ok s) :: t, by rw [h1]; simp, fun i q r h => ?_⟩
    rw [List.mem_cons] at h
    rcases h with h | h
    · simp only [Event.search.injEq] at h
      obtain ⟨rfl, rfl, _⟩ := h
      exact ⟨iter, rfl, hS⟩
    · exact absurd h (h2 i q r)

theorem NoSearch.resultPar (env : Env n) (i : Nat) (v : F64) (s : Sol n) (e : Nat) :
    NoSearch (Act.resultPar env i v s e) :=
  (QuietAct.beginIter env i).noSearch.seq (NoSearch.seq (NoSearch.same fun _ => rfl)
    (NoSearch.process fun _ => (QuietAct.obsLocal _ _).noSearch.seq ((QuietAct.obsIter i).noSearch.seq
      ((QuietAct.callback env i).noSearch.seq (NoSearch.seq (NoSearch.same fun _ => rfl)
        (QuietAct.save env).noSearch)))))

theorem LocAt.singlePar {S : Nat → Pt n → Prop} (env : Env n) (i : Nat) (p : Pt n) (v : F64)
    (hS : S i p) (m : M n) : LocAt S (Act.singlePar env i p v) m := by
  unfold LocAt Act.singlePar
  refine LocAt.seq ((QuietAct.beginIter env i).noSearch.loc S m) (fun m2 => ?_)
  refine LocAt.seq ((NoSearch.same fun _ => rfl : NoSearch (Act.setThreshold v)).loc S m2)
    (LocAt.search hS fun s e => ?_)
  exact NoSearch.process fun _ => (QuietAct.obsLocal _ _).noSearch.seq
    ((QuietAct.obsIter i).noSearch.seq ((QuietAct.invoke env _).noSearch.seq
      (NoSearch.seq (NoSearch.same fun _ => rfl) (QuietAct.save env).noSearch)))

theorem NoSearch.quickPar (env : Env n) (i : Nat) : NoSearch (Act.quickPar env i) :=
  (QuietAct.beginIter env i).noSearch.seq ((NoSearch.reject i).seq ((QuietAct.obsIter i).noSearch.seq
    ((QuietAct.callback env i).noSearch.seq (QuietAct.save env).noSearch)))

theorem LocAt.localsPar {S : Nat → Pt n → Prop} (env : Env n) (k : Nat) (c : List (Nat × Pt n × F64))
    (hS : ∀ x ∈ c, S x.1 x.2.1) (m : M n) : LocAt S (Act.localsPar env k c) m := by
  unfold LocAt Act.localsPar
  split
  · have hev : ∀ i p r, Event.search i p r ∈ c.map (Act.solveEvent env m.opt) →
        ∃ j, i = some j ∧ S j p := by
      intro i p r h
      obtain ⟨x, hx, he⟩ := List.mem_map.1 h
      unfold Act.solveEvent at he
      simp only [Event.search.injEq] at he
      obtain ⟨rfl, rfl, _⟩ := he
      exact ⟨_, rfl, hS x hx⟩
    unfold Act.groupPar
    split
    · exact ⟨_, rfl, hev⟩
    · rename_i rs _
      obtain ⟨t, h1, h2⟩ := NoSearch.all rs
        (fun r => Act.resultPar env r.1 r.2.1 r.2.2.1 r.2.2.2)
        (fun r _ => NoSearch.resultPar env _ _ _ _)
        { m with trace := m.trace ++ c.map (Act.solveEvent env m.opt) }
      refine ⟨c.map (Act.solveEvent env m.opt) ++ t, by rw [h1]; simp, fun i p r h => ?_⟩
      rw [List.mem_append] at h
      rcases h with h | h
      · exact hev i p r h
      · exact absurd h (h2 i p r)
  · exact LocAt.all c (fun c => Act.singlePar env c.1 c.2.1 c.2.2)
      (fun x hx m => LocAt.singlePar env _ _ _ (hS x hx) m) m

/-- Prepending events that are no searches. -/
theorem LocAt.prepend {S : Nat → Pt n → Prop} {r : M n × Out} {m : M n} {t : List (Event n)}
    (ht : ∀ i p r, Event.search i p r ∉ t)
    (h : ∃ t', r.1.trace = (m.trace ++ t) ++ t' ∧ ∀ i p r, Event.search i p r ∈ t' → ∃ j, i = some j ∧ S j p) :
    ∃ t', r.1.trace = m.trace ++ t' ∧ ∀ i p r, Event.search i p r ∈ t' → ∃ j, i = some j ∧ S j p := by
  obtain ⟨t', h1, h2⟩ := h
  refine ⟨t ++ t', by rw [h1, List.append_assoc], fun i p r h => ?_⟩
  rw [List.mem_append] at h
  rcases h with h | h
  · exact absurd h (ht i p r)
  · exact h2 i p r h

/-- Item of the batch whose point passes the distance filter. -/
def InBatch (its : List (Nat × Pt n)) (o : Opt n) (i : Nat) (p : Pt n) : Prop :=
  (i, p) ∈ its ∧ o.dist.check p = true

theorem evalTask_ok {o : Opt n} {objs : Option (List F64)} {it : Nat × Pt n} {c : Nat × Pt n × F64}
    (h : Act.evalTask o objs it = .ok c) : (c.1, c.2.1) = it := by
  unfold Act.evalTask at h
  cases hm : Act.meritValue o objs it.1 it.2 with
  | error e => rw [hm] at h; cases h
  | ok v => rw [hm] at h; cases h; rfl

theorem shouldStart_check {o : Opt n} {p : Pt n} {v : F64} (h : o.shouldStart p v = true) :
    o.dist.check p = true := by
  unfold Opt.shouldStart at h
  rw [Bool.and_eq_true] at h
  exact h.2

theorem LocAt.batchParItems (env : Env n) (objs : Option (List F64)) (its : List (Nat × Pt n))
    (m : M n) : LocAt (InBatch its m.opt) (Act.batchParItems env objs its) m := by
  cases its with
  | nil => exact QuietAct.skip.noSearch.loc _ m
  | cons it0 its =>
    unfold LocAt Act.batchParItems
    dsimp only
    have hlog : (Act.logEvals objs (it0 :: its) m).opt = m.opt := by
      unfold Act.logEvals; split <;> rfl
    have hlt : ∃ t, (Act.logEvals objs (it0 :: its) m).trace = m.trace ++ t ∧
        ∀ i p r, Event.search i p r ∉ t := by
      unfold Act.logEvals
      split
      · refine ⟨_, rfl, fun i p r h => ?_⟩
        obtain ⟨x, _, hx⟩ := List.mem_map.1 h
        cases hx
      · exact ⟨[], by simp, fun i p r h => by cases h⟩
    obtain ⟨t, ht1, ht2⟩ := hlt
    split
    · exact ⟨t, ht1, fun i p r h => absurd h (ht2 i p r)⟩
    · rename_i vals hv
      have hvals := parCollect_ok hv
      refine LocAt.prepend ht2 ?_
      rw [← ht1]
      generalize Act.logEvals objs (it0 :: its) m = m1 at hlog
      rw [← hlog]
      unfold Act.afterEval
      have hev : ∀ i p r, Event.search i p r ∉
          vals.map fun c => Event.examine c.1 c.2.1 c.2.2 (Act.passes m1.opt c) := by
        intro i p r h
        obtain ⟨x, _, hx⟩ := List.mem_map.1 h
        cases hx
      refine LocAt.prepend hev ?_
      have key : ∀ m2 : M n, LocAt (InBatch (it0 :: its) m1.opt)
          ((if objs.isNone then Act.obsEvals vals.length else Act.skip) ;;
            Act.all ((vals.filter fun c => !Act.passes m1.opt c).map fun c => Act.quickPar env c.1) ;;
            Act.localsPar env it0.1 (vals.filter (Act.passes m1.opt))) m2 := by
        intro m2
        refine LocAt.seq ?_ fun m3 => LocAt.seq ?_ fun m4 => LocAt.localsPar env _ _ ?_ m4
        · split
          · exact (QuietAct.obsEvals _).noSearch.loc _ _
          · exact QuietAct.skip.noSearch.loc _ _
        · exact (NoSearch.all _ _ fun _ _ => NoSearch.quickPar env _).loc _ _
        · intro x hx
          rw [List.mem_filter] at hx
          refine ⟨?_, shouldStart_check (v := x.2.2) hx.2⟩
          have hx1 : Except.ok x ∈ vals.map (Except.ok (ε := Err)) := List.mem_map.2 ⟨x, hx.1, rfl⟩
          rw [← hvals] at hx1
          obtain ⟨it, hit, he⟩ := List.mem_map.1 hx1
          rw [evalTask_ok he]
          exact hit
      exact key _

/-- One sequential iteration. -/
theorem LocAt.stepSeq (env : Env n) (r : Bool) (st : Nat) (objs : Option (List F64)) (it : Nat × Pt n)
    (m : M n) : LocAt (InBatch [it] m.opt) (Act.stepSeq env r st objs it) m := by
  unfold LocAt Act.stepSeq
  split
  · exact QuietAct.skip.noSearch.loc _ m
  · have hq := (QuietAct.beginIter env it.1).seq (QuietAct.obsIter it.1)
    have hd : (((Act.beginIter env it.1 ;; Act.obsIter it.1) m)).1.opt.dist = m.opt.dist :=
      (hq.quiet m).dist
    obtain ⟨t, ht1, ht2⟩ := hq.noSearch m
    have hassoc : ∀ c : Act n, (Act.beginIter env it.1 ;; Act.obsIter it.1 ;; c) m =
        ((Act.beginIter env it.1 ;; Act.obsIter it.1) ;; c) m := by
      intro c
      rw [Act.seq_def, Act.seq_def (Act.beginIter env it.1 ;; Act.obsIter it.1),
        Act.seq_def (Act.beginIter env it.1) (Act.obsIter it.1)]
      by_cases h : (Act.beginIter env it.1 m).2 = .cont
      · rw [if_pos h, if_pos h, Act.seq_def]
      · rw [if_neg h, if_neg h, if_neg h]
    rw [hassoc, Act.seq_def]
    split
    swap
    · exact ⟨t, ht1, fun i p r h => absurd h (ht2 i p r)⟩
    refine LocAt.prepend ht2 ?_
    rw [← ht1]
    generalize ((Act.beginIter env it.1 ;; Act.obsIter it.1) m).1 = m1 at hd
    unfold Act.getMerit
    dsimp only
    have hm2 : ∃ t, (if objs.isNone = true then { m1 with trace := m1.trace ++ [.evaluate it.1 it.2] }
        else m1 : M n).trace = m1.trace ++ t ∧ ∀ i p r, Event.search i p r ∉ t := by
      split
      · exact ⟨[_], rfl, fun i p r h => by simp at h⟩
      · exact ⟨[], by simp, fun i p r h => by cases h⟩
    have hd2 : (if objs.isNone = true then { m1 with trace := m1.trace ++ [.evaluate it.1 it.2] }
        else m1 : M n).opt.dist = m.opt.dist := by
      split <;> exact hd
    generalize (if objs.isNone = true then { m1 with trace := m1.trace ++ [.evaluate it.1 it.2] }
        else m1 : M n) = m2 at hm2 hd2
    obtain ⟨t', k1, k2⟩ := hm2
    split
    · exact ⟨t', k1, fun i p r h => absurd h (k2 i p r)⟩
    · rename_i v _
      refine LocAt.prepend k2 ?_
      rw [← k1]
      have hq3 : QuietAct (if objs.isNone = true then Act.obsEvals (n := n) 1 else Act.skip) := by
        split
        · exact QuietAct.obsEvals 1
        · exact QuietAct.skip
      generalize (if objs.isNone = true then Act.obsEvals (n := n) 1 else Act.skip) = q at hq3
      obtain ⟨t3, l1, l2⟩ := hq3.noSearch m2
      have hd3 : (q m2).1.opt.dist = m.opt.dist := (hq3.quiet m2).dist.trans hd2
      rw [Act.seq_def]
      split
      swap
      · exact ⟨t3, l1, fun i p r h => absurd h (l2 i p r)⟩
      refine LocAt.prepend l2 ?_
      rw [← l1]
      generalize (q m2).1 = m3 at hd3
      have key : ∀ b : Bool, (b = true → m.opt.dist.check it.2 = true) → ∀ m4,
          LocAt (InBatch [it] m.opt) (Act.log (.examine it.1 it.2 v b) ;;
            (if b = true then Act.localSeq env it.1 it.2 v else Act.reject it.1) ;;
            Act.callback env it.1 ;; Act.save env) m4 := by
        intro b hb m4
        refine LocAt.seq ⟨[_], rfl, fun i p r h => by simp at h⟩ fun m5 => LocAt.seq ?_ fun m6 =>
          ((QuietAct.callback env _).seq (QuietAct.save env)).noSearch.loc _ _
        split
        · rename_i hbt
          unfold LocAt Act.localSeq
          refine LocAt.seq ((NoSearch.same fun _ => rfl : NoSearch (Act.setThreshold v)).loc _ m5)
            (LocAt.search ⟨by simp, hb hbt⟩ fun s e => ?_)
          exact NoSearch.process fun _ => (QuietAct.obsLocal _ _).noSearch.seq
            (NoSearch.same fun _ => rfl)
        · exact (NoSearch.reject _).loc _ _
      refine key _ (fun hb => ?_) m3
      rw [← hd3]
      exact shouldStart_check hb

/-! ### The loop -/

/-- Batch number of an iteration. -/
def batchNo (st k i : Nat) : Nat := (i - st) / k

/-- Every search of the trace starts far from the solutions of stage 1 and of earlier batches. -/
def EarlyFar (df : F64) (init : List (Sol n)) (st k : Nat) (tr : List (Event n)) : Prop :=
  ∀ pre i p r post, tr = pre ++ .search (some i) p r :: post →
    Far df p init ∧ ∀ j q s, Event.search j q (.ok s) ∈ pre →
      (∀ j', j = some j' → batchNo st k j' < batchNo st k i) → Far df p [s]

theorem EarlyFar.append {df : F64} {init : List (Sol n)} {st k : Nat} {tr t : List (Event n)}
    (h : EarlyFar df init st k tr) {c : Nat}
    (ht : ∀ i p r, Event.search i p r ∈ t → ∃ j, i = some j ∧ batchNo st k j = c ∧
      Far df p (init ++ foundSols tr)) : EarlyFar df init st k (tr ++ t) := by
  intro pre i p r post he
  rw [List.append_eq_append_iff] at he
  rcases he with ⟨a, h1, h2⟩ | ⟨a, h1, h2⟩
  · have hmem : Event.search (some i) p r ∈ t := by rw [h2]; simp
    obtain ⟨j, hj, hb, hf⟩ := ht _ _ _ hmem
    cases hj
    refine ⟨fun s hs => hf s (by simp [hs]), fun j q s hs hlt => ?_⟩
    rw [h1, List.mem_append] at hs
    rcases hs with hs | hs
    · intro s' hs'
      rw [List.mem_singleton] at hs'
      subst hs'
      refine hf _ ?_
      rw [List.mem_append]
      right
      unfold foundSols
      rw [List.mem_filterMap]
      exact ⟨_, hs, rfl⟩
    · obtain ⟨j', hj', hb', _⟩ := ht j q _ (show Event.search j q (.ok s) ∈ t by rw [h2]; simp [hs])
      have := hlt j' hj'
      omega
  · cases a with
    | nil =>
      have h1' : pre = tr := by simpa using h1.symm
      have hmem : Event.search (some i) p r ∈ t := by
        have : Event.search (some i) p r :: post = t := by simpa using h2
        rw [← this]; simp
      obtain ⟨j, hj, hb, hf⟩ := ht _ _ _ hmem
      cases hj
      refine ⟨fun s hs => hf s (by simp [hs]), fun j q s hs hlt => ?_⟩
      rw [h1'] at hs
      intro s' hs'
      rw [List.mem_singleton] at hs'
      subst hs'
      refine hf _ ?_
      rw [List.mem_append]
      right
      unfold foundSols
      rw [List.mem_filterMap]
      exact ⟨_, hs, rfl⟩
    | cons e a =>
      rw [List.cons_append, List.cons.injEq] at h2
      refine h pre i p r a ?_
      rw [h1, h2.1]

theorem check_far {d : DistanceFilter n} {p : Pt n} (h : d.check p = true) :
    Far d.params.distanceFactor p d.solutions := by
  unfold DistanceFilter.check at h
  rw [List.all_eq_true] at h
  exact h

/-- Consecutive iterations starting with `a`. -/
def Consec (a : Nat) (l : List (Nat × Pt n)) : Prop := l.map Prod.fst = List.range' a l.length

theorem Consec.take {a : Nat} {l : List (Nat × Pt n)} (h : Consec a l) (k : Nat) :
    ∀ x ∈ l.take k, a ≤ x.1 ∧ x.1 < a + k := by
  intro x hx
  have h1 : x.1 ∈ (l.map Prod.fst).take k := by
    rw [← List.map_take]; exact List.mem_map.2 ⟨x, hx, rfl⟩
  rw [h, List.mem_take_iff_getElem] at h1
  obtain ⟨j, hj, he⟩ := h1
  rw [List.getElem_range'] at he
  omega

theorem Consec.drop {a : Nat} {l : List (Nat × Pt n)} (h : Consec a l) {k : Nat} :
    Consec (a + k) (l.drop k) := by
  unfold Consec at *
  rw [List.map_drop, h, List.length_drop]
  apply List.ext_getElem
  · simp
  · intro i h1 h2
    simp only [List.getElem_drop, List.getElem_range']
    omega

theorem loop_early {env : Env n} {o : Opt n} {u sv : Nat} (hne : o.solset ≠ some [])
    (r : Bool) (st : Nat) (objs : Option (List F64)) (eff : Nat) (heff : 0 < eff) (f k c : Nat)
    (l : List (Nat × Pt n)) (hl : Consec (st + c * eff) l) (m : M n)
    (hr : Reach env ⟨o, u, sv, []⟩ m) (hrec : foundSols m.trace = procs m.trace)
    (he : EarlyFar o.dist.params.distanceFactor o.dist.solutions st eff m.trace) :
    EarlyFar o.dist.params.distanceFactor o.dist.solutions st eff
      (Act.loop env r st objs eff k (chunksF eff f l) m).1.trace := by
  induction f generalizing k c l m with
  | zero => unfold chunksF; exact he
  | succ f ih =>
    cases l with
    | nil => unfold chunksF; exact he
    | cons a l =>
      unfold chunksF Act.loop
      split
      · exact he
      · have hS : LocAt (InBatch ((a :: l).take eff) m.opt)
            (Act.procBatch env r st objs eff ((a :: l).take eff)) m := by
          unfold LocAt Act.procBatch
          split
          · have h1 := LocAt.batchParItems env objs (if r then ((a :: l).take eff).filter
                (fun it => st ≤ it.1) else (a :: l).take eff) m
            obtain ⟨t, h2, h3⟩ := h1
            refine ⟨t, h2, fun i p x hx => ?_⟩
            obtain ⟨j, hj, hb1, hb2⟩ := h3 i p x hx
            refine ⟨j, hj, ?_, hb2⟩
            split at hb1
            · exact (List.mem_filter.1 hb1).1
            · exact hb1
          · have h1 : (a :: l).take eff = [a] := by
              have : eff = 1 := by omega
              subst this; simp
            rw [h1]
            unfold Act.batchSeq
            rw [List.map_cons, List.map_nil]
            unfold Act.all
            exact LocAt.seq (LocAt.stepSeq env r st objs a m)
              fun m => QuietAct.skip.noSearch.loc _ m
        have hrec1 := RecC.procBatch env r st objs eff ((a :: l).take eff) m hrec
        have hstp := Stp.procBatch env r st objs eff ((a :: l).take eff) m
        have hreach := Steps.procBatch env r st objs eff ((a :: l).take eff) m
        have he1 : EarlyFar o.dist.params.distanceFactor o.dist.solutions st eff
            (Act.procBatch env r st objs eff ((a :: l).take eff) m).1.trace := by
          obtain ⟨t, h1, h2⟩ := hS
          rw [h1]
          refine he.append (c := c) fun i p x hx => ?_
          obtain ⟨j, hj, hb1, hb2⟩ := h2 i p x hx
          refine ⟨j, hj, ?_, ?_⟩
          · have := hl.take eff _ hb1
            dsimp only at this
            unfold batchNo
            rw [Nat.div_eq_iff heff]
            have h3 : c * eff + eff = (c + 1) * eff := by rw [Nat.succ_mul]
            omega
          · have hh := histInv hne hr
            rw [hrec, ← hh.dist, ← hh.cfg.dparams]
            exact check_far hb2
        generalize Act.procBatch env r st objs eff ((a :: l).take eff) m = res at *
        obtain ⟨m', out⟩ := res
        have hl2 : Consec (st + (c + 1) * eff) ((a :: l).drop eff) := by
          have := hl.drop (k := eff)
          rw [Nat.succ_mul, ← Nat.add_assoc]
          exact this
        cases out
        case fail => exact he1
        case cont =>
          dsimp only
          split
          · exact he1
          · exact ih (k + 1) (c + 1) _ hl2 m' (hr.trans hreach) (hrec1 rfl) he1
        case stop =>
          dsimp only
          rw [if_pos (hstp rfl)]
          exact he1

theorem items_consec (N st : Nat) (ref : List (Pt n)) : Consec (st + 0 * 0) (Act.items N st ref) := by
  unfold Consec Act.items
  rw [List.map_drop, List.map_map]
  apply List.ext_getElem
  · simp
  · intro i h1 h2
    simp

theorem EarlyFar.more {df : F64} {init : List (Sol n)} {st k : Nat} {tr t : List (Event n)}
    (h : EarlyFar df init st k tr) (ht : ∀ i p r, Event.search i p r ∉ t) :
    EarlyFar df init st k (tr ++ t) :=
  h.append (c := 0) fun i p r hm => absurd hm (ht i p r)

theorem stage2Main_early {env : Env n} {o : Opt n} {u sv : Nat} (hne : o.solset ≠ some [])
    (r : Bool) (st : Nat) (ref : List (Pt n)) (objs : Option (List F64)) (m : M n)
    (hr : Reach env ⟨o, u, sv, []⟩ m) (hrec : foundSols m.trace = procs m.trace)
    (h2 : ∀ i p r, Event.search (some i) p r ∉ m.trace) :
    EarlyFar o.dist.params.distanceFactor o.dist.solutions st (o.effBatch env.threads st)
      (Act.stage2Main env r st ref objs m).1.trace := by
  have hcfg := hr.cfg
  have heff : m.opt.effBatch env.threads st = o.effBatch env.threads st := by
    unfold Opt.effBatch
    rw [show m.opt.par = o.par from hcfg.par, show m.opt.batch = o.batch from hcfg.batch,
      show m.opt.params = o.params from hcfg.params]
  have h0 : EarlyFar o.dist.params.distanceFactor o.dist.solutions st (o.effBatch env.threads st)
      m.trace := by
    intro pre i p r post he
    exact absurd (by rw [he]; simp) (h2 i p r)
  unfold Act.stage2Main
  rw [heff]
  split
  · exact h0
  · rename_i hz
    have hloop := loop_early hne r st objs (o.effBatch env.threads st) (by omega)
      (Act.items m.opt.params.iterations st ref).length 0 0 _ (by
        have := items_consec m.opt.params.iterations st ref
        simpa using this) m hr hrec h0
    rw [Act.seq_def]
    split
    · obtain ⟨t, k1, k2⟩ := ((QuietAct.obsEnd2 env).seq (QuietAct.saveFinal env)).noSearch
        (Act.loop env r st objs (o.effBatch env.threads st) 0
          (chunks (o.effBatch env.threads st) (Act.items m.opt.params.iterations st ref)) m).1
      rw [k1]
      exact EarlyFar.more hloop k2
    · exact hloop

theorem stage2_early {env : Env n} {o : Opt n} {u sv : Nat} (hne : o.solset ≠ some [])
    (r : Bool) (ref : List (Pt n)) (objs : Option (List F64)) (m : M n)
    (hr : Reach env ⟨o, u, sv, []⟩ m) (hrec : foundSols m.trace = procs m.trace)
    (h2 : ∀ i p r, Event.search (some i) p r ∉ m.trace) :
    EarlyFar o.dist.params.distanceFactor o.dist.solutions (if r then m.opt.curIter else 0)
      (o.effBatch env.threads (if r then m.opt.curIter else 0))
      (Act.stage2 env r ref objs m).1.trace := by
  unfold Act.stage2
  rw [Act.seq_def, show (Act.obsStart2 (n := n) env _).2 = .cont from rfl, if_pos rfl]
  have hr1 : Reach env ⟨o, u, sv, []⟩ (Act.obsStart2 env m).1 := hr.trans (Steps.obs m)
  have hci : (Act.obsStart2 env m).1.opt.curIter = m.opt.curIter := rfl
  have htr : (Act.obsStart2 env m).1.trace = m.trace := rfl
  generalize (Act.obsStart2 env m).1 = m1 at hr1 hci htr
  rw [← htr] at hrec h2
  rw [← hci]
  cases r with
  | true =>
    simp only [if_true]
    exact stage2Main_early hne true _ ref objs m1 hr1 hrec h2
  | false =>
    simp only [Bool.false_eq_true, if_false]
    have h0 : EarlyFar o.dist.params.distanceFactor o.dist.solutions 0 (o.effBatch env.threads 0)
        m1.trace := by
      intro pre i p r post he
      exact absurd (by rw [he]; simp) (h2 i p r)
    split
    · exact h0
    · rename_i sd _
      rw [Act.seq_def, show (Act.setSeed (n := n) sd _).2 = .cont from rfl, if_pos rfl]
      exact stage2Main_early hne false 0 _ objs _ (hr1.trans (Steps.setSeed env sd m1)) hrec h2

/-- State before stage 2: no stage-2 search, and all solutions found are recorded. -/
def Before (env : Env n) (o : Opt n) (m : M n) : Prop :=
  Reach env ⟨o, 0, 0, []⟩ m ∧ foundSols m.trace = procs m.trace ∧ searched m.trace = []

theorem Before.none {env : Env n} {o : Opt n} {m : M n} (h : Before env o m) (i : Nat) (p : Pt n)
    (r : Except LErr (Sol n)) : Event.search (some i) p r ∉ m.trace := by
  intro hm
  have := h.2.2
  unfold searched at this
  rw [List.filterMap_eq_nil_iff] at this
  have := this _ hm
  cases this

theorem Before.step {env : Env n} {o : Opt n} {a : Act n} {f e : Nat} (hs : Steps env a) (hr : Rec a)
    (hb : Bound a f 0 e) (m : M n) (h : Before env o m) : Before env o (a m).1 := by
  obtain ⟨t, h1, _, h2, _⟩ := hb m
  refine ⟨h.1.trans (hs m), hr m h.2.1, ?_⟩
  rw [h1, searched_append, h.2.2, List.length_eq_zero_iff.1 (Nat.le_zero.1 h2)]
  rfl

theorem Before.early {env : Env n} {o : Opt n} {m : M n} (h : Before env o m) {df : F64}
    {init : List (Sol n)} {st k : Nat} : EarlyFar df init st k m.trace := by
  intro pre i p r post he
  exact absurd (by rw [he]; simp) (h.none i p r)

theorem early_seq {env : Env n} {o : Opt n} {a b : Act n} {df : F64} {init : List (Sol n)} {st k : Nat}
    (ha : ∀ m, Before env o m → Before env o (a m).1)
    (hb : ∀ m, Before env o m → EarlyFar df init st k (b m).1.trace) (m : M n)
    (h : Before env o m) : EarlyFar df init st k ((a ;; b) m).1.trace := by
  rw [Act.seq_def]
  split
  · exact hb _ (ha m h)
  · exact (ha m h).early

theorem fresh_early {env : Env n} {o : Opt n} (hne : o.solset ≠ some []) :
    EarlyFar o.dist.params.distanceFactor o.dist.solutions 0 (o.effBatch env.threads 0)
      (Act.body env false ⟨o, 0, 0, []⟩).1.trace := by
  have h0 : Before env o ⟨o, 0, 0, []⟩ := ⟨Relation.ReflTransGen.refl, rfl, rfl⟩
  unfold Act.body
  rw [if_neg (by simp)]
  unfold Act.stage1
  split
  · exact h0.early
  · rename_i r _
    refine early_seq (Before.step (Steps.log rfl rfl) (QuietAct.log rfl).record (Bound.log rfl)) ?_ _ h0
    refine early_seq (a := if o.tracks1 = true then Act.obsScatter env r else Act.skip) ?_ ?_
    · split
      · exact Before.step (Steps.obsScatter env r) (QuietAct.obsScatter env r).record
          (Bound.obsScatter env r)
      · exact Before.step (Steps.skip env) QuietAct.skip.record Bound.skip
    refine early_seq (Before.step (Steps.obsScatterDone env _ _) (QuietAct.obsScatterDone env _ _).record
      (Bound.obs.seq ((Bound.invoke env _).seq Bound.obs))) ?_
    refine early_seq (Before.step (Steps.stage1Local env _ _) (Rec.stage1Local env _ _)
      (Bound.stage1Local env _ _)) ?_
    refine early_seq (Before.step (fun m => Relation.ReflTransGen.single (Prim.uc m 0))
      (Rec.same fun _ => rfl) (Bound.same fun _ => rfl)) ?_
    intro m hm
    exact stage2_early hne false _ _ m hm.1 hm.2.1 hm.none

theorem resumed_early {env : Env n} {o : Opt n} (hne : o.solset ≠ some []) :
    EarlyFar o.dist.params.distanceFactor o.dist.solutions o.curIter (o.effBatch env.threads o.curIter)
      (Act.body env true ⟨o, 0, 0, []⟩).1.trace := by
  unfold Act.body
  rw [if_pos rfl]
  exact stage2_early hne true _ _ _ (Relation.ReflTransGen.single (Prim.uc ⟨o, 0, 0, []⟩ _)) rfl
    (fun _ _ _ h => by cases h)

end GS
