/- Callbacks of stage 2 are shown the iteration they belong to. -/
import Verif.Lemmas.Shown

namespace GS
open F64
variable {n : Nat}

/-- The iteration shown by the observer, if it is told about stage 2. -/
def M.shownIter (m : M n) : Option Nat := m.seen2.map Stage2.iteration

/-- The callbacks among the events. -/
def cbs (t : List (Event n)) : List (Nat × Obs n × F64 × Nat) := t.filterMap fun e => match e with
  | .callback k b w => some (k, b, w)
  | _ => none

theorem cbs_append (a b : List (Event n)) : cbs (a ++ b) = cbs a ++ cbs b := List.filterMap_append

theorem cbs_none (t : List (Event n)) (h : ∀ e ∈ t, ∀ k b w, e ≠ .callback k b w) : cbs t = [] := by
  unfold cbs
  rw [List.filterMap_eq_nil_iff]
  intro e he
  cases e with
  | callback k b w => exact absurd rfl (h _ he k b w)
  | _ => rfl

/-- A piece of code without callbacks that leaves the shown iteration alone. -/
def Still (a : Act n) : Prop := ∀ m, (a m).1.shownIter = m.shownIter ∧ cbs (a m).1.trace = cbs m.trace

theorem Still.seq {a b : Act n} (ha : Still a) (hb : Still b) : Still (a ;; b) := by
  intro m
  rw [Act.seq_def]
  split
  · exact ⟨(hb _).1.trans (ha m).1, (hb _).2.trans (ha m).2⟩
  · exact ha m

theorem Still.skip : Still (Act.skip (n := n)) := fun _ => ⟨rfl, rfl⟩

theorem still_obs {a : Act n} {m : M n} (ho : (a m).1.opt.obs = m.opt.obs) {t : List (Event n)}
    (ht : (a m).1.trace = m.trace ++ t) (hc : cbs t = []) :
    (a m).1.shownIter = m.shownIter ∧ cbs (a m).1.trace = cbs m.trace := by
  unfold M.shownIter M.seen2
  rw [ho, ht, cbs_append, hc, List.append_nil]
  exact ⟨rfl, rfl⟩

theorem Still.log (e : Event n) (h : ∀ k b w, e ≠ .callback k b w) : Still (Act.log e) := fun m =>
  still_obs (t := [e]) rfl rfl (cbs_none _ (by simpa using h))

theorem Still.beginIter (env : Env n) (i : Nat) : Still (Act.beginIter env i) := by
  intro m
  unfold Act.beginIter
  dsimp only
  split <;> exact ⟨rfl, rfl⟩

theorem Still.setThreshold (v : F64) : Still (Act.setThreshold (n := n) v) := fun _ => ⟨rfl, rfl⟩

theorem Still.stopIfTarget : Still (Act.stopIfTarget (n := n)) := fun _ => ⟨rfl, rfl⟩

theorem Still.reject (i : Nat) : Still (Act.reject (n := n) i) := by
  intro m
  unfold Act.reject
  split
  · refine ⟨rfl, ?_⟩
    dsimp only
    rw [cbs_append, cbs_none [_] (by simp), List.append_nil]
  · exact ⟨rfl, rfl⟩

theorem shownIter_upd2 (m : M n) (f : Stage2 n → Stage2 n) (hf : ∀ s, (f s).iteration = s.iteration) :
    ({ m with opt := m.opt.mapObs fun b => b.upd2 f } : M n).shownIter = m.shownIter := by
  unfold M.shownIter M.seen2 Opt.mapObs
  dsimp only
  cases m.opt.obs with
  | none => rfl
  | some b =>
    simp only [Option.map_some, Option.bind_some, seen2_upd2, Option.map_map]
    congr 1
    funext s
    exact hf s

theorem Still.obsEvals (k : Nat) : Still (Act.obsEvals (n := n) k) := fun m =>
  ⟨shownIter_upd2 m _ fun _ => rfl, rfl⟩

theorem ofSet_iter (s : Stage2 n) (set : Option (List (Sol n))) : (s.ofSet set).iteration = s.iteration := by
  unfold Stage2.ofSet
  cases set with
  | none => rfl
  | some l =>
    dsimp only [Stage2.setSize, Stage2.setBest]
    cases bestSolution l with
    | none => rfl
    | some b => dsimp only; split <;> rfl

theorem Still.obsLocal (added : Bool) (k : Nat) : Still (Act.obsLocal (n := n) added k) := fun m =>
  ⟨shownIter_upd2 m _ fun s => (ofSet_iter ((s.addLocalCall added).addEvals k) m.opt.solset).trans (by
    cases added <;> rfl), rfl⟩

theorem Still.process (s : Sol n) {k : Verdict → Act n} (hk : ∀ v, Still (k v)) : Still (Act.process s k) := by
  intro m
  unfold Act.process
  dsimp only
  have h : ({ m with opt := (m.opt.process s).1, trace := m.trace ++ [.processed s (m.opt.process s).2] } :
        M n).shownIter = m.shownIter ∧
      cbs (m.trace ++ [.processed s (m.opt.process s).2]) = cbs m.trace := by
    refine ⟨?_, by rw [cbs_append, cbs_none [_] (by simp), List.append_nil]⟩
    obtain ⟨g, hg, hg'⟩ := process_obs m.opt s
    unfold M.shownIter M.seen2
    dsimp only
    rw [hg]
    cases m.opt.obs with
    | none => rfl
    | some b =>
      simp only [Option.map_some, Option.bind_some]
      rcases hg' with rfl | rfl
      · rfl
      · rw [seen2_mod2, Option.map_map]; rfl
  split
  · exact h
  · exact ⟨(hk _ _).1.trans h.1, (hk _ _).2.trans h.2⟩

theorem Still.search {env : Env n} {ty : SolverType} {cfg : SolverConfig} {it : Option Nat} {p : Pt n}
    {k : Sol n → Nat → Act n} (hk : ∀ s e, Still (k s e)) : Still (Act.search env ty cfg it p k) := by
  intro m
  unfold Act.search
  have h : ∀ r, ({ m with trace := m.trace ++ [.search it p r] } : M n).shownIter = m.shownIter ∧
      cbs (m.trace ++ [.search it p r]) = cbs m.trace :=
    fun r => ⟨rfl, by rw [cbs_append, cbs_none [_] (by simp), List.append_nil]⟩
  split
  · exact h _
  · exact ⟨(hk _ _ _).1.trans (h _).1, (hk _ _ _).2.trans (h _).2⟩

theorem Still.localSeq (env : Env n) (i : Nat) (p : Pt n) (v : F64) : Still (Act.localSeq env i p v) := by
  intro m
  unfold Act.localSeq
  exact ((Still.setThreshold v).seq (Still.search fun s e => Still.process s fun v =>
    (Still.obsLocal _ _).seq Still.stopIfTarget)) m

/-- Writing checkpoints. -/
theorem Still.writeCkpt (env : Env n) : Still (Act.writeCkpt env) := by
  intro m
  unfold Act.writeCkpt
  dsimp only
  split <;>
  · refine ⟨rfl, ?_⟩
    dsimp only
    rw [cbs_append, cbs_none [_] (by simp), List.append_nil]

theorem Still.save (env : Env n) : Still (Act.save env) := by
  intro m
  unfold Act.save
  split
  · exact ⟨rfl, rfl⟩
  · split
    · exact ⟨rfl, rfl⟩
    · split
      · exact Still.writeCkpt env m
      · exact ⟨rfl, rfl⟩

/-- The callback was shown the iteration it belongs to. -/
def RightIter (x : Nat × Obs n × F64 × Nat) : Prop := ∃ i s, x.1 = 16 + i ∧ x.2.1.seen2 = some s ∧ s.iteration = i

/-- New callbacks were shown the right iteration. -/
def Its (m m' : M n) : Prop := m.seen2.isSome = true → m'.seen2.isSome = true ∧
  ∃ l, cbs m'.trace = cbs m.trace ++ l ∧ ∀ x ∈ l, RightIter x

theorem Its.refl (m : M n) : Its m m := fun h => ⟨h, [], by simp, by simp⟩

theorem Its.trans {a b c : M n} (h : Its a b) (k : Its b c) : Its a c := by
  intro ha
  obtain ⟨hb, l, h1, h2⟩ := h ha
  obtain ⟨hc, u, k1, k2⟩ := k hb
  exact ⟨hc, l ++ u, by rw [k1, h1, List.append_assoc],
    fun x hx => (List.mem_append.1 hx).elim (h2 x) (k2 x)⟩

theorem shown_isSome (m : M n) : m.shownIter.isSome = m.seen2.isSome := by
  unfold M.shownIter
  cases m.seen2 <;> rfl

theorem Still.its {a : Act n} (h : Still a) (m : M n) : Its m (a m).1 := by
  intro hm
  obtain ⟨h1, h2⟩ := h m
  exact ⟨by rw [← shown_isSome, h1, shown_isSome]; exact hm, [], by rw [h2, List.append_nil], by simp⟩

/-- Pieces of code of iteration `i` once the observer shows it. -/
def Within (i : Nat) (a : Act n) : Prop := ∀ m, m.shownIter = some i →
  (a m).1.shownIter = some i ∧ ∃ l, cbs (a m).1.trace = cbs m.trace ++ l ∧ ∀ x ∈ l, RightIter x

theorem Still.within {a : Act n} (h : Still a) (i : Nat) : Within i a := fun m hm =>
  ⟨(h m).1.trans hm, [], by rw [(h m).2, List.append_nil], by simp⟩

theorem Within.seq {i : Nat} {a b : Act n} (ha : Within i a) (hb : Within i b) : Within i (a ;; b) := by
  intro m hm
  rw [Act.seq_def]
  obtain ⟨h1, l, h2, h3⟩ := ha m hm
  split
  · obtain ⟨k1, u, k2, k3⟩ := hb _ h1
    exact ⟨k1, l ++ u, by rw [k2, h2, List.append_assoc],
      fun x hx => (List.mem_append.1 hx).elim (h3 x) (k3 x)⟩
  · exact ⟨h1, l, h2, h3⟩

theorem Within.invoke {env : Env n} (ht : Tame env) (i : Nat) : Within i (Act.invoke env (16 + i)) := by
  intro m hm
  unfold Act.invoke
  split
  · exact ⟨hm, [], by simp, by simp⟩
  · rename_i b hb
    obtain ⟨p, hp⟩ := invoke_prev ht (16 + i) b
    rw [hp]
    have hs : (b.seen2).map Stage2.iteration = some i := by
      unfold M.shownIter M.seen2 at hm
      rw [hb] at hm
      exact hm
    refine ⟨hs, ?_⟩
    dsimp only
    split
    · refine ⟨[(16 + i, b, m.opt.merit.threshold, m.uc)], by rw [cbs_append]; rfl, fun x hx => ?_⟩
      rw [List.mem_singleton.1 hx]
      cases h2 : b.seen2 with
      | none => rw [h2] at hs; cases hs
      | some s =>
        rw [h2] at hs
        exact ⟨i, s, rfl, h2, Option.some.inj hs⟩
    · exact ⟨[], by simp, by simp⟩

theorem Within.callback {env : Env n} (ht : Tame env) (i : Nat) : Within i (Act.callback env i) := by
  intro m hm
  unfold Act.callback
  split
  · exact ⟨hm, [], by simp, by simp⟩
  · split
    · exact ⟨hm, [], by simp, by simp⟩
    · exact Within.invoke ht i m hm
    · exact ⟨hm, [], by simp, by simp⟩

theorem Within.getMerit {i : Nat} {objs : Option (List F64)} {p : Pt n} {k : F64 → Act n}
    (hk : ∀ v, Within i (k v)) : Within i (Act.getMerit objs i p k) := by
  intro m hm
  unfold Act.getMerit
  dsimp only
  have h : ∀ b : Bool, (if b then ({ m with trace := m.trace ++ [.evaluate i p] } : M n) else m).shownIter =
      m.shownIter ∧ cbs (if b then ({ m with trace := m.trace ++ [.evaluate i p] } : M n) else m).trace =
        cbs m.trace := by
    intro b
    cases b
    · exact ⟨rfl, rfl⟩
    · exact ⟨rfl, by
        show cbs (m.trace ++ [_]) = _
        rw [cbs_append, cbs_none [_] (by simp), List.append_nil]⟩
  split
  · exact ⟨(h _).1.trans hm, [], by rw [(h _).2, List.append_nil], by simp⟩
  · rename_i v _
    have h2 : Within i ((if objs.isNone = true then Act.obsEvals (n := n) 1 else Act.skip) ;; k v) := by
      refine Within.seq (Still.within ?_ i) (hk v)
      split
      · exact Still.obsEvals 1
      · exact Still.skip
    obtain ⟨k1, l, k2, k3⟩ := h2 _ ((h objs.isNone).1.trans hm)
    exact ⟨k1, l, by rw [k2, (h _).2], k3⟩

/-- Telling the observer the iteration, and what follows. -/
theorem iter_its {i : Nat} {a : Act n} (h : Within i a) (m : M n) : Its m ((Act.obsIter i ;; a) m).1 := by
  intro hm
  rw [Act.seq_def, show (Act.obsIter (n := n) i m).2 = .cont from rfl, if_pos rfl]
  have h1 : (Act.obsIter i m).1.shownIter = some i := by
    unfold Act.obsIter M.shownIter M.seen2 Opt.mapObs
    unfold M.seen2 at hm
    dsimp only
    cases ho : m.opt.obs with
    | none => rw [ho] at hm; cases hm
    | some b =>
      rw [ho] at hm
      simp only [Option.map_some, Option.bind_some, seen2_upd2]
      cases h2 : b.seen2 with
      | none =>
        have hm : b.seen2.isSome = true := hm
        rw [h2] at hm; cases hm
      | some s => rfl
  obtain ⟨k1, l, k2, k3⟩ := h _ h1
  exact ⟨by rw [← shown_isSome, k1]; rfl, l, k2, k3⟩

theorem Its.seq {a b : Act n} {m : M n} (ha : Its m (a m).1) (hb : ∀ m, Its m (b m).1) : Its m ((a ;; b) m).1 := by
  rw [Act.seq_def]
  split
  · exact ha.trans (hb _)
  · exact ha

theorem search_its {env : Env n} {ty : SolverType} {cfg : SolverConfig} {it : Option Nat} {p : Pt n}
    {k : Sol n → Nat → Act n} (hk : ∀ s e m, Its m (k s e m).1) (m : M n) :
    Its m (Act.search env ty cfg it p k m).1 := by
  unfold Act.search
  have h : ∀ r, Its m { m with trace := m.trace ++ [.search it p r] } :=
    fun r => (Still.log (.search it p r) (by simp)).its m
  split
  · exact h _
  · exact (h _).trans (hk _ _ _)

theorem itsStep {env : Env n} (ht : Tame env) : Stepwise env false (Its (n := n)) where
  refl := Its.refl
  trans := Its.trans
  quiet m m' _ ho _ h := by
    obtain ⟨t, h1, h2⟩ := h
    intro hm
    refine ⟨by unfold M.seen2 at hm ⊢; rw [ho]; exact hm, [], ?_, by simp⟩
    rw [h1, cbs_append, cbs_none t ?_]
    intro e he k b w hk
    have := h2 e he
    rw [hk] at this; cases this
  end2 m _ := Still.its (a := Act.obsEnd2 env) (fun m => ⟨shownIter_upd2 m _ fun s => by
    unfold Stage2.finish; split <;> rfl, rfl⟩) m
  work m es h := by
    intro hm
    refine ⟨hm, [], ?_, by simp⟩
    dsimp only
    rw [cbs_append, cbs_none es ?_]
    intro e he k b w hk
    have := h e he
    rw [hk] at this; cases this
  evals k m _ := (Still.obsEvals k).its m
  stepSeq r st objs it m _ := by
    unfold Act.stepSeq
    split
    · exact Its.refl m
    · refine Its.seq ((Still.beginIter env _).its m) fun m => iter_its ?_ m
      exact Within.getMerit fun v m hm => by
        refine ((Still.log _ (by simp)).within _).seq ((Still.within ?_ _).seq
          ((Within.callback ht _).seq ((Still.save env).within _))) m hm
        split
        · exact Still.localSeq env _ _ v
        · exact Still.reject _
  quickPar i m _ := Its.seq ((Still.beginIter env _).its m) fun m =>
    Its.seq ((Still.reject _).its m) fun m => iter_its ((Within.callback ht i).seq ((Still.save env).within i)) m
  resultPar i v s e m _ := by
    unfold Act.resultPar
    rw [process_seq]
    exact Its.seq ((Still.beginIter env _).its m) fun m => Its.seq ((Still.setThreshold _).its m) fun m =>
      Its.seq ((Still.process s fun _ => Still.obsLocal _ _).its m) fun m =>
        iter_its ((Within.callback ht i).seq ((Still.stopIfTarget.within i).seq ((Still.save env).within i))) m
  singlePar i p v m _ := by
    unfold Act.singlePar
    refine Its.seq ((Still.beginIter env _).its m) fun m => Its.seq ((Still.setThreshold _).its m) fun m => ?_
    refine search_its (fun s e m => ?_) m
    rw [process_seq]
    exact Its.seq ((Still.process s fun _ => Still.obsLocal _ _).its m) fun m =>
      iter_its ((Within.invoke ht i).seq ((Still.stopIfTarget.within i).seq ((Still.save env).within i))) m

/-! ### The threshold and the unchanged cycles -/

/-- The callback was shown the threshold and unchanged cycles in force. -/
def RightForce (x : Nat × Obs n × F64 × Nat) : Prop :=
  ∃ s, x.2.1.seen2 = some s ∧ s.threshold = x.2.2.1 ∧ s.unchangedCycles = x.2.2.2

/-- New callbacks were shown the threshold and unchanged cycles in force. -/
def Force (m m' : M n) : Prop := m.seen2.isSome = true → m'.seen2.isSome = true ∧
  ∃ l, cbs m'.trace = cbs m.trace ++ l ∧ ∀ x ∈ l, RightForce x

theorem Force.refl (m : M n) : Force m m := fun h => ⟨h, [], by simp, by simp⟩

theorem Force.trans {a b c : M n} (h : Force a b) (k : Force b c) : Force a c := by
  intro ha
  obtain ⟨hb, l, h1, h2⟩ := h ha
  obtain ⟨hc, u, k1, k2⟩ := k hb
  exact ⟨hc, l ++ u, by rw [k1, h1, List.append_assoc],
    fun x hx => (List.mem_append.1 hx).elim (h2 x) (k2 x)⟩

theorem Still.force {a : Act n} (h : Still a) (m : M n) : Force m (a m).1 := by
  intro hm
  obtain ⟨h1, h2⟩ := h m
  exact ⟨by rw [← shown_isSome, h1, shown_isSome]; exact hm, [], by rw [h2, List.append_nil], by simp⟩

theorem Force.seq {a b : Act n} {m : M n} (ha : Force m (a m).1) (hb : ∀ m, Force m (b m).1) :
    Force m ((a ;; b) m).1 := by
  rw [Act.seq_def]
  split
  · exact ha.trans (hb _)
  · exact ha

/-- The observer shows what is in force. -/
def M.UpToDate (m : M n) : Prop :=
  ∃ s, m.seen2 = some s ∧ s.threshold = m.opt.merit.threshold ∧ s.unchangedCycles = m.uc

theorem iter_upToDate (i : Nat) (m : M n) (h : m.seen2.isSome = true) : (Act.obsIter i m).1.UpToDate := by
  unfold Act.obsIter M.UpToDate M.seen2 Opt.mapObs
  unfold M.seen2 at h
  dsimp only
  cases ho : m.opt.obs with
  | none => rw [ho] at h; cases h
  | some b =>
    rw [ho] at h
    have h : b.seen2.isSome = true := h
    simp only [Option.map_some, Option.bind_some, seen2_upd2]
    cases h2 : b.seen2 with
    | none => rw [h2] at h; cases h
    | some s => exact ⟨_, rfl, rfl, rfl⟩

theorem invoke_force {env : Env n} (ht : Tame env) (k : Nat) (m : M n) (h : m.UpToDate) :
    Force m (Act.invoke env k m).1 := by
  obtain ⟨s, h1, h2, h3⟩ := h
  intro _
  unfold Act.invoke
  unfold M.seen2 at h1
  cases hb : m.opt.obs with
  | none => rw [hb] at h1; cases h1
  | some b =>
    rw [hb] at h1
    have h1 : b.seen2 = some s := h1
    obtain ⟨p, hp⟩ := invoke_prev ht k b
    dsimp only
    rw [hp]
    refine ⟨?_, ?_⟩
    · show b.seen2.isSome = true
      rw [h1]; rfl
    · split
      · refine ⟨[(k, b, m.opt.merit.threshold, m.uc)], by rw [cbs_append]; rfl, fun x hx => ?_⟩
        rw [List.mem_singleton.1 hx]
        exact ⟨s, h1, h2, h3⟩
      · exact ⟨[], by simp, by simp⟩

theorem callback_force {env : Env n} (ht : Tame env) (i : Nat) (m : M n) (h : m.UpToDate) :
    Force m (Act.callback env i m).1 := by
  unfold Act.callback
  split
  · exact Force.refl m
  · split
    · exact Force.refl m
    · exact invoke_force ht _ m h
    · exact Force.refl m

/-- Telling the observer the iteration, the callback, and what follows. -/
theorem iter_force {i : Nat} {c a : Act n} (hc : ∀ m, m.UpToDate → Force m (c m).1) (h : Still a) (m : M n) :
    Force m ((Act.obsIter i ;; c ;; a) m).1 := by
  rw [Act.seq_def, show (Act.obsIter (n := n) i m).2 = .cont from rfl, if_pos rfl]
  intro hm
  have h0 : Force m (Act.obsIter i m).1 := fun _ =>
    ⟨by obtain ⟨s, hs, _⟩ := iter_upToDate i m hm; rw [hs]; rfl, [], by
      rw [List.append_nil]; rfl, by simp⟩
  exact h0.trans (Force.seq (hc _ (iter_upToDate i m hm)) fun m => h.force m) hm

theorem forceStep {env : Env n} (ht : Tame env) : StepPar env false (Force (n := n)) where
  refl := Force.refl
  trans := Force.trans
  quiet m m' _ ho _ h := by
    obtain ⟨t, h1, h2⟩ := h
    intro hm
    refine ⟨by unfold M.seen2 at hm ⊢; rw [ho]; exact hm, [], ?_, by simp⟩
    rw [h1, cbs_append, cbs_none t ?_]
    intro e he k b w hk
    have := h2 e he
    rw [hk] at this; cases this
  end2 m _ := Still.force (a := Act.obsEnd2 env) (fun m => ⟨shownIter_upd2 m _ fun s => by
    unfold Stage2.finish; split <;> rfl, rfl⟩) m
  work m es h := by
    intro hm
    refine ⟨hm, [], ?_, by simp⟩
    dsimp only
    rw [cbs_append, cbs_none es ?_]
    intro e he k b w hk
    have := h e he
    rw [hk] at this; cases this
  evals k m _ := (Still.obsEvals k).force m
  quickPar i m _ := Force.seq ((Still.beginIter env _).force m) fun m =>
    Force.seq ((Still.reject _).force m) fun m => iter_force (callback_force ht i) (Still.save env) m
  resultPar i v s e m _ := by
    unfold Act.resultPar
    rw [process_seq]
    exact Force.seq ((Still.beginIter env _).force m) fun m => Force.seq ((Still.setThreshold _).force m) fun m =>
      Force.seq ((Still.process s fun _ => Still.obsLocal _ _).force m) fun m =>
        iter_force (callback_force ht i) (Still.stopIfTarget.seq (Still.save env)) m
  singlePar i p v m _ := by
    unfold Act.singlePar
    refine Force.seq ((Still.beginIter env _).force m) fun m => Force.seq ((Still.setThreshold _).force m) fun m => ?_
    unfold Act.search
    have h : ∀ r, Force m { m with trace := m.trace ++ [.search (some i) p r] } :=
      fun r => (Still.log (.search (some i) p r) (by simp)).force m
    split
    · exact h _
    · rename_i s e _
      refine (h (.ok s)).trans ?_
      dsimp only
      rw [process_seq]
      exact Force.seq ((Still.process s fun _ => Still.obsLocal _ _).force _) fun m =>
        iter_force (invoke_force ht _) (Still.stopIfTarget.seq (Still.save env)) m

end GS
