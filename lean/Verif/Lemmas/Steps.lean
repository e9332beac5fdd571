/- Every piece of the optimizer is a sequence of primitive steps; invariants of a run follow by
checking the primitive steps. -/
import Verif.Model.Oqnlp
import Mathlib.Logic.Relation

namespace GS
open Relation
variable {n : Nat}

/-- Configuration fields, which no step of a run changes. -/
structure SameCfg (a b : Opt n) : Prop where
  problem : b.problem = a.problem
  params : b.params = a.params
  lsType : b.lsType = a.lsType
  lsConfig : b.lsConfig = a.lsConfig
  maxTime : b.maxTime = a.maxTime
  batch : b.batch = a.batch
  par : b.par = a.par
  target : b.target = a.target
  exclude : b.exclude = a.exclude
  ckpt : b.ckpt = a.ckpt
  custom : b.custom = a.custom
  absTol : b.absTol = a.absTol
  relTol : b.relTol = a.relTol
  dparams : b.dist.params = a.dist.params

theorem SameCfg.refl (a : Opt n) : SameCfg a a := by constructor <;> rfl
theorem SameCfg.trans {a b c : Opt n} (h : SameCfg a b) (k : SameCfg b c) : SameCfg a c := by
  obtain ⟨a1, a2, a3, a4, a5, a6, a7, a8, a9, a10, a11, a12, a13, a14⟩ := h
  obtain ⟨b1, b2, b3, b4, b5, b6, b7, b8, b9, b10, b11, b12, b13, b14⟩ := k
  constructor <;> simp_all

theorem SameCfg.setCfg {a b : Opt n} (h : SameCfg a b) : b.setCfg = a.setCfg := by
  unfold Opt.setCfg
  rw [h.problem, h.exclude, h.absTol, h.relTol, h.params]

/-- Events that carry no obligation. -/
def Event.plain : Event n → Bool
  | .processed _ _ | .saved _ _ | .saveFailed _ _ => false
  | _ => true

/-- A recorded local search has the result of the solver, run with the type and configuration given at
construction (sequential searches) or with those of the parameters (parallel searches). -/
def Event.Genuine (env : Env n) (o : Opt n) : Event n → Prop
  | .search _ p r => r = (env.solve o.lsType o.lsConfig p).map Prod.fst ∨
      r = (env.solve o.params.solverType o.params.solverConfig p).map Prod.fst
  | _ => True

/-- The event is not a local search. -/
def Event.noSearch : Event n → Bool
  | .search .. => false
  | _ => true

theorem Event.noSearch.genuine {e : Event n} (h : e.noSearch = true) (env : Env n) (o : Opt n) :
    e.Genuine env o := by
  cases e <;> first | trivial | cases h

/-- Primitive steps of a run. -/
inductive Prim (env : Env n) : M n → M n → Prop where
  /-- counters, seed, stored reference set, observer and threshold change -/
  | opt (m : M n) (o : Opt n) (hc : SameCfg m.opt o) (hs : o.solset = m.opt.solset)
      (hd : o.dist = m.opt.dist) : Prim env m { m with opt := o }
  | uc (m : M n) (k : Nat) : Prim env m { m with uc := k }
  | log (m : M n) (e : Event n) (h : e.plain = true) (hg : e.Genuine env m.opt) :
      Prim env m { m with trace := m.trace ++ [e] }
  | save (m : M n) (h : env.io m.saves = none) : Prim env m
      { m with saves := m.saves + 1
               trace := m.trace ++ [.saved m.opt.curIter (m.opt.createCkpt (env.stamp m.saves))] }
  | saveFail (m : M n) (h : (env.io m.saves).isSome = true) : Prim env m
      { m with saves := m.saves + 1
               trace := m.trace ++
                [.saveFailed m.opt.curIter (m.opt.createCkpt (env.stamp m.saves))] }
  | proc (m : M n) (s : Sol n) (h : ∃ it p, Event.search it p (.ok s) ∈ m.trace) : Prim env m
      { m with opt := (m.opt.process s).1
               trace := m.trace ++ [.processed s (m.opt.process s).2] }

/-- Reachable by primitive steps. -/
abbrev Reach (env : Env n) : M n → M n → Prop := ReflTransGen (Prim env)

theorem reach_opt (env : Env n) (m : M n) (o : Opt n) (hc : SameCfg m.opt o)
    (hs : o.solset = m.opt.solset) (hd : o.dist = m.opt.dist) :
    Reach env m { m with opt := o } := ReflTransGen.single (Prim.opt m o hc hs hd)

theorem reach_log (env : Env n) (m : M n) (e : Event n) (h : e.plain = true)
    (hg : e.Genuine env m.opt) :
    Reach env m { m with trace := m.trace ++ [e] } := ReflTransGen.single (Prim.log m e h hg)

theorem reach_logs (env : Env n) (m : M n) (es : List (Event n)) (h : ∀ e ∈ es, e.plain = true)
    (hg : ∀ e ∈ es, e.Genuine env m.opt) : Reach env m { m with trace := m.trace ++ es } := by
  induction es generalizing m with
  | nil => simpa using ReflTransGen.refl
  | cons e es ih =>
    refine ReflTransGen.trans (reach_log env m e (h e (by simp)) (hg e (by simp))) ?_
    have := ih { m with trace := m.trace ++ [e] } (fun x hx => h x (by simp [hx])) fun x hx => hg x (by simp [hx])
    simpa using this

/-- The trace only grows along a run. -/
theorem Reach.trace {env : Env n} {m m' : M n} (h : Reach env m m') :
    ∃ t, m'.trace = m.trace ++ t := by
  induction h with
  | refl => exact ⟨[], by simp⟩
  | tail _ hp ih =>
    obtain ⟨t, ht⟩ := ih
    cases hp
    case opt => exact ⟨t, ht⟩
    case uc => exact ⟨t, ht⟩
    all_goals exact ⟨t ++ [_], by simp only [ht, List.append_assoc]; rfl⟩

theorem Opt.process_cfg (o : Opt n) (s : Sol n) : SameCfg o (o.process s).1 := by
  unfold Opt.process
  dsimp only
  split
  · exact SameCfg.refl o
  · constructor <;> (dsimp only [Opt.mapObs, DistanceFilter.add]; (repeat' split) <;> rfl)

/-- Configuration never changes. -/
theorem Reach.cfg {env : Env n} {m m' : M n} (h : Reach env m m') : SameCfg m.opt m'.opt := by
  induction h with
  | refl => exact SameCfg.refl _
  | tail _ hp ih =>
    refine ih.trans ?_
    cases hp
    case opt hc _ _ => exact hc
    case proc s _ => exact Opt.process_cfg _ _
    all_goals exact SameCfg.refl _

/-- An action consists of primitive steps. -/
def Steps (env : Env n) (a : Act n) : Prop := ∀ m, Reach env m (a m).1

theorem Steps.seq {env : Env n} {a b : Act n} (ha : Steps env a) (hb : Steps env b) :
    Steps env (a ;; b) := by
  intro m
  unfold Act.seq
  have h1 := ha m
  split
  · rename_i m' he
    rw [he] at h1
    exact h1.trans (hb m')
  · exact h1

theorem reach_seq {env : Env n} {a b : Act n} {m : M n} (ha : Reach env m (a m).1)
    (hb : Reach env (a m).1 (b (a m).1).1) : Reach env m ((a ;; b) m).1 := by
  unfold Act.seq
  split
  · rename_i m' he
    rw [he] at ha hb
    exact ha.trans hb
  · exact ha

theorem Steps.skip (env : Env n) : Steps env Act.skip := fun _ => ReflTransGen.refl

theorem Steps.all {env : Env n} {l : List (Act n)} (h : ∀ a ∈ l, Steps env a) :
    Steps env (Act.all l) := by
  induction l with
  | nil => exact Steps.skip env
  | cons a l ih => exact (h a (by simp)).seq (ih fun x hx => h x (by simp [hx]))

theorem Steps.modify {env : Env n} {f : Opt n → Opt n} (h : ∀ o, SameCfg o (f o))
    (hs : ∀ o, (f o).solset = o.solset) (hd : ∀ o, (f o).dist = o.dist) :
    Steps env (Act.modify f) := fun m => reach_opt env m _ (h _) (hs _) (hd _)

theorem Steps.obs {env : Env n} {f : Opt n → Obs n → Obs n} :
    Steps env (Act.modify fun o => o.mapObs (f o)) :=
  Steps.modify (fun o => by constructor <;> rfl) (fun _ => rfl) (fun _ => rfl)

theorem Steps.beginIter (env : Env n) (i : Nat) : Steps env (Act.beginIter env i) := by
  intro m
  unfold Act.beginIter
  dsimp only
  split <;> exact reach_opt env m _ (by constructor <;> rfl) rfl rfl

theorem Steps.obsIter (env : Env n) (i : Nat) : Steps env (Act.obsIter (n := n) i) :=
  fun m => reach_opt env m _ (by constructor <;> rfl) rfl rfl

theorem Steps.obsEvals (env : Env n) (i : Nat) : Steps env (Act.obsEvals (n := n) i) := Steps.obs

theorem Steps.setThreshold (env : Env n) (v : F64) : Steps env (Act.setThreshold (n := n) v) :=
  Steps.modify (fun o => by constructor <;> rfl) (fun _ => rfl) (fun _ => rfl)

theorem Steps.obsLocal (env : Env n) (b : Bool) (k : Nat) :
    Steps env (Act.obsLocal (n := n) b k) := Steps.obs

theorem Steps.stopIfTarget (env : Env n) : Steps env (Act.stopIfTarget (n := n)) :=
  fun _ => ReflTransGen.refl

theorem Steps.reject (env : Env n) (i : Nat) : Steps env (Act.reject (n := n) i) := by
  intro m
  unfold Act.reject
  split
  · dsimp only
    refine ReflTransGen.trans (reach_opt env m { m.opt with merit := (m.opt.merit.update
      (Opt.relaxed m.opt.params.thresholdFactor m.opt.merit.threshold)) }
      (by constructor <;> rfl) rfl rfl) ?_
    refine ReflTransGen.trans (ReflTransGen.single (Prim.uc _ 0)) ?_
    exact reach_log env _ _ rfl trivial
  · exact ReflTransGen.single (Prim.uc m _)

theorem Steps.invoke (env : Env n) (k : Nat) : Steps env (Act.invoke env k) := by
  intro m
  unfold Act.invoke
  split
  · exact ReflTransGen.refl
  · rename_i b _
    refine ReflTransGen.trans (reach_opt env m { m.opt with obs := some (b.invoke env.cb k) }
      (by constructor <;> rfl) rfl rfl) ?_
    dsimp only
    split
    · exact reach_log env _ _ rfl trivial
    · exact ReflTransGen.refl

theorem Steps.callback (env : Env n) (k : Nat) : Steps env (Act.callback env k) := by
  intro m
  unfold Act.callback
  split
  · exact ReflTransGen.refl
  · split
    · exact ReflTransGen.refl
    · exact Steps.invoke env _ m
    · exact ReflTransGen.refl

theorem Steps.writeCkpt (env : Env n) : Steps env (Act.writeCkpt env) := by
  intro m
  unfold Act.writeCkpt
  dsimp only
  split
  · rename_i e he
    exact ReflTransGen.single (Prim.saveFail m (by rw [he]; rfl))
  · rename_i he
    exact ReflTransGen.single (Prim.save m he)

theorem Steps.save (env : Env n) : Steps env (Act.save env) := by
  intro m
  unfold Act.save
  split
  · exact ReflTransGen.refl
  · split
    · exact ReflTransGen.refl
    · split
      · exact Steps.writeCkpt env m
      · exact ReflTransGen.refl

theorem Steps.saveFinal (env : Env n) : Steps env (Act.saveFinal env) := by
  intro m
  unfold Act.saveFinal
  split
  · exact ReflTransGen.refl
  · exact Steps.writeCkpt env m

/-- Actions that may assume that `s` was returned by a recorded local search. -/
def StepsAfter (env : Env n) (s : Sol n) (a : Act n) : Prop :=
  ∀ m, (∃ it p, Event.search it p (.ok s) ∈ m.trace) → Reach env m (a m).1

theorem Steps.after {env : Env n} {a : Act n} (h : Steps env a) (s : Sol n) :
    StepsAfter env s a := fun m _ => h m

theorem StepsAfter.seq {env : Env n} {s : Sol n} {a b : Act n} (ha : Steps env a)
    (hb : StepsAfter env s b) : StepsAfter env s (a ;; b) := by
  intro m hm
  unfold Act.seq
  have h1 := ha m
  split
  · rename_i m' he
    rw [he] at h1
    refine h1.trans (hb m' ?_)
    obtain ⟨it, p, h⟩ := hm
    obtain ⟨t, ht⟩ := h1.trace
    have ht : m'.trace = m.trace ++ t := ht
    exact ⟨it, p, by rw [ht]; simp [h]⟩
  · exact h1

theorem StepsAfter.process {env : Env n} {s : Sol n} {k : Verdict → Act n}
    (hk : ∀ v, Steps env (k v)) : StepsAfter env s (Act.process s k) := by
  intro m hm
  unfold Act.process
  dsimp only
  have h1 : Reach env m { m with
      opt := (m.opt.process s).1, trace := m.trace ++ [.processed s (m.opt.process s).2] } :=
    ReflTransGen.single (Prim.proc m s hm)
  split
  · exact h1
  · exact h1.trans (hk _ _)

theorem Steps.search {env : Env n} {ty : SolverType} {cfg : SolverConfig} {iter : Option Nat}
    {p : Pt n} {k : Sol n → Nat → Act n} (hk : ∀ s e, StepsAfter env s (k s e)) (m : M n)
    (hty : ty = m.opt.lsType) (hcfg : cfg = m.opt.lsConfig) :
    Reach env m (Act.search env ty cfg iter p k m).1 := by
  subst hty hcfg
  unfold Act.search
  split
  · rename_i e he
    exact reach_log env m _ rfl (Or.inl (by rw [he]; rfl))
  · rename_i s evals he
    refine (reach_log env m (.search iter p (.ok s)) rfl (Or.inl (by rw [he]; rfl))).trans ?_
    exact hk s _ _ ⟨iter, p, by simp⟩

theorem Steps.getMerit {env : Env n} {objs : Option (List F64)} {iter : Nat} {p : Pt n}
    {k : F64 → Act n} (hk : ∀ v, Steps env (k v)) : Steps env (Act.getMerit objs iter p k) := by
  intro m
  unfold Act.getMerit
  dsimp only
  have h1 : Reach env m
      (if objs.isNone then { m with trace := m.trace ++ [.evaluate iter p] } else m) := by
    split
    · exact reach_log env m _ rfl trivial
    · exact ReflTransGen.refl
  split
  · exact h1
  · refine h1.trans (Steps.seq ?_ (hk _) _)
    split
    · exact Steps.obsEvals env 1
    · exact Steps.skip env

theorem Steps.localSeq (env : Env n) (i : Nat) (p : Pt n) (v : F64) :
    Steps env (Act.localSeq env i p v) := by
  intro m
  unfold Act.localSeq
  refine reach_seq (Steps.setThreshold env v m) (Steps.search (fun s e => ?_) _ rfl rfl)
  exact StepsAfter.process fun v => (Steps.obsLocal env _ _).seq (Steps.stopIfTarget env)

theorem Steps.log {env : Env n} {e : Event n} (h : e.plain = true) (hn : e.noSearch = true) :
    Steps env (Act.log e) := fun m => reach_log env m e h (Event.noSearch.genuine hn env _)

theorem Steps.stepSeq (env : Env n) (r : Bool) (st : Nat) (objs : Option (List F64))
    (it : Nat × Pt n) : Steps env (Act.stepSeq env r st objs it) := by
  unfold Act.stepSeq
  split
  · exact Steps.skip env
  · refine (Steps.beginIter env _).seq ((Steps.obsIter env _).seq (Steps.getMerit fun v => ?_))
    intro m
    refine Steps.seq (Steps.log rfl rfl) (Steps.seq ?_ ((Steps.callback env _).seq (Steps.save env))) m
    split
    · exact Steps.localSeq env _ _ _
    · exact Steps.reject env _

theorem Steps.batchSeq (env : Env n) (r : Bool) (st : Nat) (objs : Option (List F64))
    (its : List (Nat × Pt n)) : Steps env (Act.batchSeq env r st objs its) := by
  apply Steps.all
  intro a ha
  rw [List.mem_map] at ha
  obtain ⟨it, _, rfl⟩ := ha
  exact Steps.stepSeq env r st objs it

theorem Steps.quickPar (env : Env n) (i : Nat) : Steps env (Act.quickPar env i) :=
  (Steps.beginIter env _).seq ((Steps.reject env _).seq ((Steps.obsIter env _).seq
    ((Steps.callback env _).seq (Steps.save env))))

theorem StepsAfter.resultPar (env : Env n) (i : Nat) (v : F64) (s : Sol n) (e : Nat) :
    StepsAfter env s (Act.resultPar env i v s e) :=
  StepsAfter.seq (Steps.beginIter env _) (StepsAfter.seq (Steps.setThreshold env _)
    (StepsAfter.process fun _ => (Steps.obsLocal env _ _).seq ((Steps.obsIter env _).seq
      ((Steps.callback env _).seq ((Steps.stopIfTarget env).seq (Steps.save env))))))

theorem Steps.singlePar (env : Env n) (i : Nat) (p : Pt n) (v : F64) :
    Steps env (Act.singlePar env i p v) := by
  intro m
  unfold Act.singlePar
  have hb := (Steps.beginIter env i m).cfg
  refine reach_seq (Steps.beginIter env i m) (reach_seq (Steps.setThreshold env v _)
    (Steps.search (fun s e => StepsAfter.process fun v => ?_) _ hb.lsType.symm hb.lsConfig.symm))
  exact (Steps.obsLocal env _ _).seq ((Steps.obsIter env _).seq ((Steps.invoke env _).seq
    ((Steps.stopIfTarget env).seq (Steps.save env))))

/-- Sequence of actions each relying on its own recorded search. -/
theorem reach_all_after {env : Env n} {α : Type} (f : α → Act n) (sol : α → Sol n) (l : List α)
    (hf : ∀ a ∈ l, StepsAfter env (sol a) (f a)) (m : M n)
    (hm : ∀ a ∈ l, ∃ it p, Event.search it p (.ok (sol a)) ∈ m.trace) :
    Reach env m (Act.all (l.map f) m).1 := by
  induction l generalizing m with
  | nil => exact ReflTransGen.refl
  | cons a l ih =>
    have h1 := hf a (by simp) m (hm a (by simp))
    simp only [List.map_cons, Act.all]
    unfold Act.seq
    split
    · rename_i m' he
      rw [he] at h1
      refine h1.trans (ih (fun x hx => hf x (by simp [hx])) m' ?_)
      intro x hx
      obtain ⟨it, p, h⟩ := hm x (by simp [hx])
      obtain ⟨t, ht⟩ := h1.trace
      have ht : m'.trace = m.trace ++ t := ht
      exact ⟨it, p, by rw [ht]; simp [h]⟩
    · exact h1

theorem optAll_mem {α : Type} {l : List (Option α)} {r : List α} (h : optAll l = some r) :
    l = r.map some := by
  induction l generalizing r with
  | nil => simp [optAll] at h; subst h; rfl
  | cons a l ih =>
    cases a with
    | none => simp [optAll] at h
    | some a =>
      simp only [optAll, Option.map_eq_some_iff] at h
      obtain ⟨r', h1, rfl⟩ := h
      simp [ih h1]

theorem parSlots_inv {α β : Type} (f : α → β) (l : List α) (order : List Nat)
    (s : List (Option β)) (hs : ∀ (i : Nat) b, s[i]? = some (some b) → ∃ a, l[i]? = some a ∧ b = f a)
    (hlen : s.length = l.length) :
    let r := order.foldl (fun slots i => match l[i]? with
      | some a => slots.set i (some (f a))
      | none => slots) s
    r.length = l.length ∧ ∀ (i : Nat) b, r[i]? = some (some b) → ∃ a, l[i]? = some a ∧ b = f a := by
  induction order generalizing s with
  | nil => exact ⟨hlen, hs⟩
  | cons j order ih =>
    simp only [List.foldl_cons]
    apply ih
    · intro i b hb
      split at hb
      · rename_i a ha
        rw [List.getElem?_set] at hb
        split at hb
        · rename_i hji
          split at hb
          · refine ⟨a, by rw [← hji]; exact ha, ?_⟩
            simpa using hb.symm
          · cases hb
        · exact hs i b hb
      · exact hs i b hb
    · split <;> simp [hlen]

/-- Whatever the completion order, a successful parallel collect holds the result of every item in
item order. -/
theorem parCollect_ok {α β : Type} {f : α → Except Err β} {l : List α} {order : List Nat}
    {r : List β} (h : Act.parCollect f l order = .ok r) :
    l.map f = r.map Except.ok := by
  unfold Act.parCollect at h
  split at h
  · cases h
  · split at h
    · cases h
    · rename_i rs hrs
      have hm := optAll_mem hrs
      have hinv := parSlots_inv f l order (l.map fun _ => none)
        (fun i b hb => by simp only [List.getElem?_map, Option.map_eq_some_iff] at hb
                          obtain ⟨_, _, h⟩ := hb
                          cases h) (by simp)
      change Act.parSlots f l order = rs.map some at hm
      change (Act.parSlots f l order).length = l.length ∧ ∀ (i : Nat) b,
        (Act.parSlots f l order)[i]? = some (some b) → ∃ a, l[i]? = some a ∧ b = f a at hinv
      rw [hm] at hinv
      have h1 : rs = l.map f := by
        apply List.ext_getElem
        · simpa using hinv.1
        · intro i h1 h2
          obtain ⟨a, ha, hb⟩ := hinv.2 i rs[i] (by simp [h1])
          rw [hb, List.getElem_map]
          congr 1
          rw [List.getElem?_eq_some_iff] at ha
          exact ha.2.symm
      rw [← h1]
      clear h1 hinv hm hrs
      induction rs generalizing r with
      | nil => simp at h; subst h; rfl
      | cons x rs ih =>
        simp only [List.foldr_cons] at h
        split at h
        · rename_i b bs hfold
          injection h with h
          subst h
          simp only [List.map_cons]
          rw [ih hfold]
        · cases h
        · cases h

theorem solveTask_ok {env : Env n} {o : Opt n} {x : Nat × Pt n × F64}
    {a : Nat × F64 × Sol n × Nat} (h : Act.solveTask env o x = .ok a) :
    Act.solveEvent env o x = .search (some x.1) x.2.1 (.ok a.2.2.1) ∧ a.1 = x.1 ∧
      a.2.1 = x.2.2 := by
  unfold Act.solveTask at h
  unfold Act.solveEvent
  split at h
  · cases h
  · rename_i s e hs
    injection h with h
    rw [hs, ← h]
    exact ⟨rfl, rfl, rfl⟩

theorem Steps.groupPar (env : Env n) (k : Nat) (c : List (Nat × Pt n × F64)) :
    Steps env (Act.groupPar env k c) := by
  intro m
  unfold Act.groupPar
  have h1 : Reach env m { m with trace := m.trace ++ c.map (Act.solveEvent env m.opt) } := by
    apply reach_logs
    · intro e he
      rw [List.mem_map] at he
      obtain ⟨_, _, rfl⟩ := he
      rfl
    · intro e he
      rw [List.mem_map] at he
      obtain ⟨_, _, rfl⟩ := he
      exact Or.inr rfl
  split
  · exact h1
  · rename_i rs hrs
    refine h1.trans (reach_all_after (fun r => Act.resultPar env r.1 r.2.1 r.2.2.1 r.2.2.2)
      (fun r => r.2.2.1) rs
      (fun a _ => StepsAfter.resultPar env a.1 a.2.1 a.2.2.1 a.2.2.2) _ ?_)
    intro a ha
    have hc := parCollect_ok hrs
    have hmem : (Except.ok a : Except Err _) ∈ rs.map Except.ok := List.mem_map.2 ⟨a, ha, rfl⟩
    rw [← hc, List.mem_map] at hmem
    obtain ⟨x, hx, hxa⟩ := hmem
    refine ⟨some x.1, x.2.1, ?_⟩
    simp only [List.mem_append]
    right
    rw [List.mem_map]
    exact ⟨x, hx, (solveTask_ok hxa).1⟩

theorem Steps.localsPar (env : Env n) (k : Nat) (c : List (Nat × Pt n × F64)) :
    Steps env (Act.localsPar env k c) := by
  intro m
  unfold Act.localsPar
  split
  · exact Steps.groupPar env k c m
  · apply Steps.all
    intro a ha
    rw [List.mem_map] at ha
    obtain ⟨it, _, rfl⟩ := ha
    exact Steps.singlePar env _ _ _

theorem Steps.afterEval (env : Env n) (objs : Option (List F64)) (k : Nat)
    (vals : List (Nat × Pt n × F64)) : Steps env (Act.afterEval env objs k vals) := by
  intro m
  unfold Act.afterEval
  refine (reach_logs env m (vals.map fun c => Event.examine c.1 c.2.1 c.2.2
    (Act.passes m.opt c)) ?_ ?_).trans ?_
  · intro e he
    rw [List.mem_map] at he
    obtain ⟨_, _, rfl⟩ := he
    rfl
  · intro e he
    rw [List.mem_map] at he
    obtain ⟨_, _, rfl⟩ := he
    trivial
  · refine Steps.seq ?_ (Steps.seq (Steps.all ?_) (Steps.localsPar env _ _)) _
    · split
      · exact Steps.obsEvals env _
      · exact Steps.skip env
    · intro a ha
      rw [List.mem_map] at ha
      obtain ⟨it, _, rfl⟩ := ha
      exact Steps.quickPar env _

theorem reach_logEvals (env : Env n) (objs : Option (List F64)) (its : List (Nat × Pt n))
    (m : M n) : Reach env m (Act.logEvals objs its m) := by
  unfold Act.logEvals
  split
  · apply reach_logs <;> intro e he <;> rw [List.mem_map] at he <;> obtain ⟨_, _, rfl⟩ := he
    · rfl
    · trivial
  · exact ReflTransGen.refl

theorem Steps.batchPar (env : Env n) (r : Bool) (st : Nat) (objs : Option (List F64))
    (its : List (Nat × Pt n)) : Steps env (Act.batchPar env r st objs its) := by
  unfold Act.batchPar
  generalize (if r then its.filter (fun it => st ≤ it.1) else its) = l
  cases l with
  | nil => exact Steps.skip env
  | cons it0 its =>
    intro m
    simp only [Act.batchParItems]
    split
    · exact reach_logEvals env objs _ m
    · exact (reach_logEvals env objs _ m).trans (Steps.afterEval env objs _ _ _)

theorem Steps.procBatch (env : Env n) (r : Bool) (st : Nat) (objs : Option (List F64)) (eff : Nat)
    (b : List (Nat × Pt n)) : Steps env (Act.procBatch env r st objs eff b) := by
  unfold Act.procBatch
  split
  · exact Steps.batchPar env r st objs b
  · exact Steps.batchSeq env r st objs b

theorem Steps.loop (env : Env n) (r : Bool) (st : Nat) (objs : Option (List F64)) (eff k : Nat)
    (bs : List (List (Nat × Pt n))) : Steps env (Act.loop env r st objs eff k bs) := by
  induction bs generalizing k with
  | nil => intro m; exact ReflTransGen.refl
  | cons b bs ih =>
    intro m
    unfold Act.loop
    split
    · exact ReflTransGen.refl
    · have h1 := Steps.procBatch env r st objs eff b m
      split
      · rename_i m' e he
        rw [he] at h1; exact h1
      · rename_i m' o _ he
        rw [he] at h1
        split
        · exact h1
        · exact h1.trans (ih (k + 1) m')

theorem Steps.stage2Main (env : Env n) (r : Bool) (st : Nat) (ref : List (Pt n))
    (objs : Option (List F64)) : Steps env (Act.stage2Main env r st ref objs) := by
  intro m
  unfold Act.stage2Main
  split
  · exact ReflTransGen.refl
  · exact Steps.seq (Steps.loop env r _ objs _ 0 _) (Steps.seq Steps.obs (Steps.saveFinal env)) _

theorem Steps.setSeed (env : Env n) (sd : Nat) : Steps env (Act.setSeed (n := n) sd) :=
  Steps.modify (fun o => by constructor <;> rfl) (fun _ => rfl) (fun _ => rfl)

theorem Steps.storeRef (env : Env n) (ref : List (Pt n)) : Steps env (Act.storeRef ref) :=
  Steps.modify (fun o => by constructor <;> rfl) (fun _ => rfl) (fun _ => rfl)

theorem Steps.stage2 (env : Env n) (r : Bool) (ref : List (Pt n)) (objs : Option (List F64)) :
    Steps env (Act.stage2 env r ref objs) := by
  unfold Act.stage2
  refine Steps.seq Steps.obs ?_
  intro m
  split
  · exact Steps.stage2Main env _ _ _ _ _
  · simp only
    split
    · exact ReflTransGen.refl
    · exact Steps.seq (Steps.setSeed env _) (Steps.stage2Main env _ _ _ _) m

theorem Steps.obsScatter (env : Env n) (r : Scatter.Result n) : Steps env (Act.obsScatter env r) :=
  Steps.seq Steps.obs (Steps.seq (Steps.invoke env _) (Steps.seq Steps.obs
    (Steps.seq (Steps.invoke env _) (Steps.seq Steps.obs (Steps.invoke env _)))))

theorem Steps.obsScatterDone (env : Env n) (ref : List (Pt n)) (objs : List F64) :
    Steps env (Act.obsScatterDone env ref objs) :=
  Steps.seq Steps.obs (Steps.seq (Steps.invoke env _) Steps.obs)

theorem Steps.obsLocal1 (env : Env n) (s : Sol n) (k : Nat) : Steps env (Act.obsLocal1 env s k) :=
  Steps.seq Steps.obs (Steps.invoke env _)

theorem Steps.obsEnd1 (env : Env n) : Steps env (Act.obsEnd1 env) :=
  Steps.seq Steps.obs (Steps.seq (Steps.invoke env _) Steps.obs)

theorem Steps.stage1Local (env : Env n) (p : Pt n) (ref : List (Pt n)) :
    Steps env (Act.stage1Local env p ref) := by
  intro m
  unfold Act.stage1Local
  split
  · rename_i e he
    exact reach_log env m _ rfl (Or.inl (by rw [he]; rfl))
  · rename_i s evals he
    refine (reach_log env m (.search none p (.ok s)) rfl (Or.inl (by rw [he]; rfl))).trans ?_
    refine StepsAfter.seq (Steps.setThreshold env _) (StepsAfter.seq (Steps.obsLocal1 env _ _)
      (StepsAfter.process fun v => ?_)) _ ⟨none, p, by simp⟩
    intro m'
    dsimp only
    split
    · exact Steps.seq (Steps.obsEnd1 env) (fun _ => ReflTransGen.refl) m'
    · exact Steps.seq (Steps.storeRef env ref) (Steps.obsEnd1 env) m'

theorem Steps.stage1 (env : Env n) {k : List (Pt n) → List F64 → Act n}
    (hk : ∀ a b, Steps env (k a b)) : Steps env (Act.stage1 env k) := by
  intro m
  unfold Act.stage1
  split
  · exact ReflTransGen.refl
  · dsimp only
    refine Steps.seq (Steps.log rfl rfl) (Steps.seq ?_ (Steps.seq (Steps.obsScatterDone env _ _)
      (Steps.seq (Steps.stage1Local env _ _) (hk _ _)))) m
    split
    · exact Steps.obsScatter env _
    · exact Steps.skip env

theorem Steps.body (env : Env n) (r : Bool) : Steps env (Act.body env r) := by
  intro m
  unfold Act.body
  split
  · exact (ReflTransGen.single (Prim.uc m _)).trans (Steps.stage2 env _ _ _ _)
  · exact Steps.stage1 env (fun a b => Steps.seq
      (fun m => ReflTransGen.single (Prim.uc m 0)) (Steps.stage2 env _ _ _)) m

/-- The optimizer at the moment the stages start: after the observer timers and a possible resume. -/
def startOpt (env : Env n) (o : Opt n) (loaded : Option (Except CkErr (Ckpt n))) :
    Except Err (Opt n × Bool) :=
  (Act.obsStart env ⟨o, 0, 0, []⟩).1.opt.tryResume loaded

theorem run_reach (env : Env n) (o : Opt n) (loaded : Option (Except CkErr (Ckpt n)))
    {o1 : Opt n} {resumed : Bool} (h : startOpt env o loaded = .ok (o1, resumed)) :
    Reach env ⟨o1, 0, 0, []⟩ (run env o loaded).final := by
  unfold run
  dsimp only
  unfold startOpt at h
  rw [h]
  dsimp only
  have hb := Steps.body env resumed ⟨o1, 0, 0, []⟩
  have e : ({ (Act.obsStart env ⟨o, 0, 0, []⟩).1 with opt := o1 } : M n) = ⟨o1, 0, 0, []⟩ := rfl
  rw [e]
  split
  · rename_i m e' he
    rw [he] at hb; exact hb
  · rename_i m o' _ he
    rw [he] at hb
    split <;> exact hb

theorem run_ok {env : Env n} {o : Opt n} {loaded : Option (Except CkErr (Ckpt n))}
    {set : List (Sol n)} (h : (run env o loaded).result = .ok set) :
    (run env o loaded).final.opt.solset = some set ∧
      ∃ o1 resumed, startOpt env o loaded = .ok (o1, resumed) := by
  unfold run at h ⊢
  dsimp only at h ⊢
  unfold startOpt
  split at h
  · cases h
  · rename_i o1 resumed hr
    rw [hr]
    refine ⟨?_, o1, resumed, rfl⟩
    split at h
    · cases h
    · rename_i m out hne hm
      split at h
      · rename_i set' hs
        injection h with h
        subst h
        simp [hs]
      · cases h

theorem startOpt_fresh {env : Env n} {o o1 : Opt n} {b : Bool}
    (h : startOpt env o none = .ok (o1, b)) :
    b = false ∧ o1 = (Act.obsStart env ⟨o, 0, 0, []⟩).1.opt := by
  unfold startOpt Opt.tryResume at h
  split at h
  · cases h; exact ⟨rfl, rfl⟩
  · split at h <;> (cases h; exact ⟨rfl, rfl⟩)

theorem Event.Genuine.cfg {env : Env n} {a b : Opt n} (h : SameCfg a b) {e : Event n}
    (he : e.Genuine env b) : e.Genuine env a := by
  cases e with
  | search it p r =>
    show _ ∨ _
    rw [← h.lsType, ← h.lsConfig, ← h.params]
    exact he
  | _ => trivial

/-- The recorded searches of a run are genuine. -/
theorem Reach.genuine {env : Env n} {o : Opt n} {u sv : Nat} {m : M n} (h : Reach env ⟨o, u, sv, []⟩ m) :
    ∀ e ∈ m.trace, e.Genuine env o := by
  have hc : SameCfg o m.opt := h.cfg
  induction h with
  | refl => simp
  | tail hr hp ih =>
    have hcfg : SameCfg o _ := Reach.cfg hr
    have ih := ih hcfg
    cases hp
    case opt => exact ih
    case uc => exact ih
    case log e _ hg =>
      intro x hx
      rw [List.mem_append, List.mem_singleton] at hx
      rcases hx with hx | rfl
      · exact ih x hx
      · exact hg.cfg hcfg
    all_goals
      intro x hx
      rw [List.mem_append, List.mem_singleton] at hx
      rcases hx with hx | rfl
      · exact ih x hx
      · trivial

end GS
