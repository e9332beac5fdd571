/- Quantities read off the event trace of a run (used to state the stage-2 properties), and steps
that leave them alone. -/
import Verif.Lemmas.History

namespace GS
open Relation F64
variable {n : Nat}

/-- Merit threshold after an event: the first local solution sets it to its objective; starting a
local search sets it to the merit value of the starting point; a first or new best solution sets it to
its objective; a relaxation sets it to the relaxed value. -/
def thrStep (t : F64) : Event n → F64
  | .search none _ (.ok s) => s.objective
  | .examine _ _ v true => v
  | .processed s .first => s.objective
  | .processed s .newBest => s.objective
  | .relaxed _ new => new
  | _ => t

/-- Merit threshold after a trace. -/
def thrAfter (t0 : F64) (tr : List (Event n)) : F64 := tr.foldl thrStep t0

/-- Number of rejected points since the last relaxation. -/
def waitStep (w : Nat) : Event n → Nat
  | .examine _ _ _ false => w + 1
  | .relaxed _ _ => 0
  | _ => w

def waitAfter (w0 : Nat) (tr : List (Event n)) : Nat := tr.foldl waitStep w0

/-- Points examined in stage 2, with their iteration number. -/
def examined (tr : List (Event n)) : List (Nat × Pt n) :=
  tr.filterMap fun e => match e with
    | .examine it p _ _ => some (it, p)
    | _ => none

/-- Examined points that passed the filters. -/
def passed (tr : List (Event n)) : List (Nat × Pt n) :=
  tr.filterMap fun e => match e with
    | .examine it p _ true => some (it, p)
    | _ => none

/-- Points from which stage 2 started a local search. -/
def searched (tr : List (Event n)) : List (Nat × Pt n) :=
  tr.filterMap fun e => match e with
    | .search (some it) p _ => some (it, p)
    | _ => none

/-- Points evaluated by stage 2 itself. -/
def evaluated (tr : List (Event n)) : List (Nat × Pt n) :=
  tr.filterMap fun e => match e with
    | .evaluate it p => some (it, p)
    | _ => none

/-- Local searches of stage 1. -/
def firstSearches (tr : List (Event n)) : List (Pt n) :=
  tr.filterMap fun e => match e with
    | .search none p _ => some p
    | _ => none

/-- The best solution after a trace reaches the target. -/
def TargetMet (o : Opt n) (tr : List (Event n)) : Prop :=
  ∃ t set b, o.target = some t ∧ setFold o.setCfg o.solset (procs tr) = some set ∧
    bestSolution set = some b ∧ F64.le b.objective t = true ∧
    (o.exclude = true → withinBounds o.problem b.point = true)

/-- Events that none of these quantities depends on. -/
def Event.neutral : Event n → Bool
  | .examine .. | .search .. | .processed .. | .relaxed .. => false
  | _ => true

section
variable {t : List (Event n)} (h : ∀ e ∈ t, e.neutral = true)
include h

theorem thrAfter_neutral (t0 : F64) (tr : List (Event n)) : thrAfter t0 (tr ++ t) = thrAfter t0 tr := by
  unfold thrAfter
  rw [List.foldl_append]
  generalize tr.foldl thrStep t0 = x
  induction t with
  | nil => rfl
  | cons e t ih =>
    rw [List.foldl_cons]
    have he := h e (by simp)
    have : thrStep x e = x := by cases e <;> first | rfl | simp [Event.neutral] at he
    rw [this]
    exact ih fun e he => h e (by simp [he])

theorem waitAfter_neutral (w0 : Nat) (tr : List (Event n)) :
    waitAfter w0 (tr ++ t) = waitAfter w0 tr := by
  unfold waitAfter
  rw [List.foldl_append]
  generalize tr.foldl waitStep w0 = x
  induction t with
  | nil => rfl
  | cons e t ih =>
    rw [List.foldl_cons]
    have he := h e (by simp)
    have : waitStep x e = x := by cases e <;> first | rfl | simp [Event.neutral] at he
    rw [this]
    exact ih fun e he => h e (by simp [he])

theorem procs_neutral (tr : List (Event n)) : procs (tr ++ t) = procs tr := by
  rw [procs_append]
  have : procs t = [] := by
    unfold procs
    rw [List.filterMap_eq_nil_iff]
    intro e he
    have := h e he
    cases e <;> first | rfl | simp [Event.neutral] at this
  rw [this, List.append_nil]

theorem examined_neutral (tr : List (Event n)) : examined (tr ++ t) = examined tr := by
  unfold examined
  rw [List.filterMap_append, (List.filterMap_eq_nil_iff (l := t)).2, List.append_nil]
  intro e he
  have := h e he
  cases e <;> first | rfl | simp [Event.neutral] at this

theorem passed_neutral (tr : List (Event n)) : passed (tr ++ t) = passed tr := by
  unfold passed
  rw [List.filterMap_append, (List.filterMap_eq_nil_iff (l := t)).2, List.append_nil]
  intro e he
  have := h e he
  cases e <;> first | rfl | simp [Event.neutral] at this

theorem searched_neutral (tr : List (Event n)) : searched (tr ++ t) = searched tr := by
  unfold searched
  rw [List.filterMap_append, (List.filterMap_eq_nil_iff (l := t)).2, List.append_nil]
  intro e he
  have := h e he
  cases e <;> first | rfl | simp [Event.neutral] at this

end

theorem thrAfter_snoc (t0 : F64) (tr : List (Event n)) (e : Event n) :
    thrAfter t0 (tr ++ [e]) = thrStep (thrAfter t0 tr) e := by simp [thrAfter]
theorem waitAfter_snoc (t0 : Nat) (tr : List (Event n)) (e : Event n) :
    waitAfter t0 (tr ++ [e]) = waitStep (waitAfter t0 tr) e := by simp [waitAfter]
theorem examined_append (a b : List (Event n)) : examined (a ++ b) = examined a ++ examined b := by
  simp [examined]
theorem passed_append (a b : List (Event n)) : passed (a ++ b) = passed a ++ passed b := by
  simp [passed]
theorem searched_append (a b : List (Event n)) : searched (a ++ b) = searched a ++ searched b := by
  simp [searched]
theorem evaluated_append (a b : List (Event n)) :
    evaluated (a ++ b) = evaluated a ++ evaluated b := by simp [evaluated]
theorem firstSearches_append (a b : List (Event n)) :
    firstSearches (a ++ b) = firstSearches a ++ firstSearches b := by simp [firstSearches]

/-- From `m` to `m'` only neutral events happened, and threshold, counter, solution set and distance
filter are unchanged. -/
structure Quiet (m m' : M n) : Prop where
  tr : ∃ t, m'.trace = m.trace ++ t ∧ ∀ e ∈ t, e.neutral = true
  thr : m'.opt.merit = m.opt.merit
  uc : m'.uc = m.uc
  set : m'.opt.solset = m.opt.solset
  dist : m'.opt.dist = m.opt.dist
  cfg : SameCfg m.opt m'.opt
  sv : ∀ t, m'.trace = m.trace ++ t → ∀ it c, Event.saved it c ∈ t →
    c.meritThreshold = m.opt.merit.threshold

theorem Quiet.refl (m : M n) : Quiet m m :=
  ⟨⟨[], by simp, by simp⟩, rfl, rfl, rfl, rfl, SameCfg.refl _, fun t h it c hm => by
    have : t = [] := by simpa using h
    rw [this] at hm; cases hm⟩

theorem Quiet.trans {a b c : M n} (h : Quiet a b) (k : Quiet b c) : Quiet a c := by
  obtain ⟨t, ht, hn⟩ := h.tr
  obtain ⟨t', ht', hn'⟩ := k.tr
  refine ⟨⟨t ++ t', by rw [ht', ht, List.append_assoc], ?_⟩, k.thr.trans h.thr, k.uc.trans h.uc,
    k.set.trans h.set, k.dist.trans h.dist, h.cfg.trans k.cfg, fun u hu it c hm => ?_⟩
  · intro e he
    rw [List.mem_append] at he
    rcases he with he | he
    · exact hn e he
    · exact hn' e he
  · have : u = t ++ t' := by
      rw [ht', ht, List.append_assoc] at hu
      exact (List.append_cancel_left hu).symm
    rw [this, List.mem_append] at hm
    rcases hm with hm | hm
    · exact h.sv t ht it c hm
    · rw [k.sv t' ht' it c hm, h.thr]

/-- The action only makes quiet steps and never stops the run early. -/
structure QuietAct (a : Act n) : Prop where
  quiet : ∀ m, Quiet m (a m).1
  nostop : ∀ m, (a m).2 ≠ .stop

theorem Act.seq_def (a b : Act n) (m : M n) :
    (a ;; b) m = if (a m).2 = .cont then b (a m).1 else a m := by
  unfold Act.seq
  rcases h : a m with ⟨m', o⟩
  cases o <;> simp

theorem QuietAct.seq {a b : Act n} (ha : QuietAct a) (hb : QuietAct b) : QuietAct (a ;; b) := by
  constructor
  · intro m
    rw [Act.seq_def]
    split
    · exact (ha.quiet m).trans (hb.quiet _)
    · exact ha.quiet m
  · intro m
    rw [Act.seq_def]
    split
    · exact hb.nostop _
    · exact ha.nostop m

theorem quiet_opt (m : M n) (o : Opt n) (h1 : o.merit = m.opt.merit) (h2 : o.solset = m.opt.solset)
    (h3 : o.dist = m.opt.dist) (h4 : SameCfg m.opt o) : Quiet m { m with opt := o } :=
  ⟨⟨[], by simp, by simp⟩, h1, rfl, h2, h3, h4, fun t h it c hm => by
    have : t = [] := by simpa using h
    rw [this] at hm; cases hm⟩

theorem quiet_log (m : M n) (e : Event n) (h : e.neutral = true)
    (hs : ∀ it c, e ≠ .saved it c := by intros; simp) :
    Quiet m { m with trace := m.trace ++ [e] } :=
  ⟨⟨[e], rfl, by simpa using h⟩, rfl, rfl, rfl, rfl, SameCfg.refl _, fun t ht it c hm => by
    have : t = [e] := (List.append_cancel_left ht).symm
    rw [this, List.mem_singleton] at hm
    exact absurd hm.symm (hs it c)⟩

theorem QuietAct.skip : QuietAct (Act.skip (n := n)) :=
  ⟨fun _ => Quiet.refl _, fun _ h => by cases h⟩

theorem QuietAct.obs {f : Opt n → Obs n → Obs n} :
    QuietAct (Act.modify fun o => o.mapObs (f o)) :=
  ⟨fun m => quiet_opt m _ rfl rfl rfl (by constructor <;> rfl), fun _ h => by cases h⟩

theorem QuietAct.log {e : Event n} (h : e.neutral = true)
    (hs : ∀ it c, e ≠ .saved it c := by intros; simp) : QuietAct (Act.log e) :=
  ⟨fun m => quiet_log m e h hs, fun _ h => by cases h⟩

theorem QuietAct.beginIter (env : Env n) (i : Nat) : QuietAct (Act.beginIter env i) := by
  constructor
  · intro m
    unfold Act.beginIter
    dsimp only
    split <;> exact quiet_opt m _ rfl rfl rfl (by constructor <;> rfl)
  · intro m
    unfold Act.beginIter
    dsimp only
    split <;> exact fun h => by cases h

theorem QuietAct.obsIter (i : Nat) : QuietAct (Act.obsIter (n := n) i) :=
  ⟨fun m => quiet_opt m _ rfl rfl rfl (by constructor <;> rfl), fun _ h => by cases h⟩

theorem QuietAct.obsEvals (i : Nat) : QuietAct (Act.obsEvals (n := n) i) := QuietAct.obs
theorem QuietAct.obsLocal (b : Bool) (k : Nat) : QuietAct (Act.obsLocal (n := n) b k) := QuietAct.obs

theorem QuietAct.invoke (env : Env n) (k : Nat) : QuietAct (Act.invoke env k) := by
  constructor
  · intro m
    unfold Act.invoke
    split
    · exact Quiet.refl _
    · rename_i b _
      refine Quiet.trans (quiet_opt m { m.opt with obs := some (b.invoke env.cb k) } rfl rfl rfl
        (by constructor <;> rfl)) ?_
      dsimp only
      split
      · exact quiet_log _ _ rfl
      · exact Quiet.refl _
  · intro m
    unfold Act.invoke
    split <;> exact fun h => by cases h

theorem QuietAct.callback (env : Env n) (k : Nat) : QuietAct (Act.callback env k) := by
  constructor
  · intro m
    unfold Act.callback
    split
    · exact Quiet.refl _
    · split
      · exact Quiet.refl _
      · exact (QuietAct.invoke env _).quiet m
      · exact Quiet.refl _
  · intro m
    unfold Act.callback
    split
    · exact fun h => by cases h
    · split
      · exact fun h => by cases h
      · exact (QuietAct.invoke env _).nostop m
      · exact fun h => by cases h

theorem QuietAct.writeCkpt (env : Env n) : QuietAct (Act.writeCkpt env) := by
  constructor
  · intro m
    unfold Act.writeCkpt
    dsimp only
    split <;> refine ⟨⟨[_], rfl, by simp [Event.neutral]⟩, rfl, rfl, rfl, rfl, SameCfg.refl _,
      fun t ht it c hm => ?_⟩
    all_goals
      rw [← List.append_cancel_left ht, List.mem_singleton] at hm
      cases hm
    rfl
  · intro m
    unfold Act.writeCkpt
    dsimp only
    split <;> exact fun h => by cases h

theorem QuietAct.save (env : Env n) : QuietAct (Act.save env) := by
  constructor
  · intro m
    unfold Act.save
    split
    · exact Quiet.refl _
    · split
      · exact Quiet.refl _
      · split
        · exact (QuietAct.writeCkpt env).quiet m
        · exact Quiet.refl _
  · intro m
    unfold Act.save
    split
    · exact fun h => by cases h
    · split
      · exact fun h => by cases h
      · split
        · exact (QuietAct.writeCkpt env).nostop m
        · exact fun h => by cases h

theorem QuietAct.saveFinal (env : Env n) : QuietAct (Act.saveFinal env) := by
  constructor
  · intro m
    unfold Act.saveFinal
    split
    · exact Quiet.refl _
    · exact (QuietAct.writeCkpt env).quiet m
  · intro m
    unfold Act.saveFinal
    split
    · exact fun h => by cases h
    · exact (QuietAct.writeCkpt env).nostop m

theorem QuietAct.storeRef (ref : List (Pt n)) : QuietAct (Act.storeRef ref) :=
  ⟨fun m => quiet_opt m _ rfl rfl rfl (by constructor <;> rfl), fun _ h => by cases h⟩
theorem QuietAct.setSeed (sd : Nat) : QuietAct (Act.setSeed (n := n) sd) :=
  ⟨fun m => quiet_opt m _ rfl rfl rfl (by constructor <;> rfl), fun _ h => by cases h⟩
theorem QuietAct.obsScatter (env : Env n) (r : Scatter.Result n) : QuietAct (Act.obsScatter env r) :=
  QuietAct.obs.seq ((QuietAct.invoke env _).seq (QuietAct.obs.seq ((QuietAct.invoke env _).seq
    (QuietAct.obs.seq (QuietAct.invoke env _)))))
theorem QuietAct.obsScatterDone (env : Env n) (ref : List (Pt n)) (objs : List F64) :
    QuietAct (Act.obsScatterDone env ref objs) :=
  QuietAct.obs.seq ((QuietAct.invoke env _).seq QuietAct.obs)
theorem QuietAct.obsLocal1 (env : Env n) (s : Sol n) (k : Nat) : QuietAct (Act.obsLocal1 env s k) :=
  QuietAct.obs.seq (QuietAct.invoke env _)
theorem QuietAct.obsEnd1 (env : Env n) : QuietAct (Act.obsEnd1 env) :=
  QuietAct.obs.seq ((QuietAct.invoke env _).seq QuietAct.obs)
theorem QuietAct.obsStart2 (env : Env n) : QuietAct (Act.obsStart2 env) := QuietAct.obs
theorem QuietAct.obsEnd2 (env : Env n) : QuietAct (Act.obsEnd2 env) := QuietAct.obs

theorem Opt.process_merit (o : Opt n) (s : Sol n) :
    (o.process s).1.merit.threshold = thrStep o.merit.threshold (.processed s (o.process s).2) := by
  rw [Opt.process_snd]
  unfold Opt.process
  dsimp only
  cases hv : classify o.setCfg o.solset s <;>
    simp [Verdict.setsThreshold, Verdict.reports, thrStep, Opt.mapObs, MeritFilter.update]

theorem targetReached_iff {o : Opt n} {m : M n} (h : HistInv o m) :
    m.opt.targetReached = true ↔ TargetMet o m.trace := by
  unfold Opt.targetReached TargetMet
  rw [h.cfg.target, ← h.solset, h.cfg.exclude, h.cfg.problem]
  constructor
  · intro hr
    split at hr
    · rename_i t set h1 h2
      split at hr
      · rename_i b hb
        rw [Bool.and_eq_true, Bool.or_eq_true] at hr
        refine ⟨t, set, b, h1, h2, hb, hr.1, fun he => ?_⟩
        rcases hr.2 with h' | h'
        · rw [he] at h'; cases h'
        · exact h'
      · cases hr
    · cases hr
  · rintro ⟨t, set, b, h1, h2, h3, h4, h5⟩
    rw [h1, h2]
    dsimp only
    rw [h3]
    dsimp only
    rw [h4, Bool.true_and, Bool.or_eq_true]
    cases he : o.exclude with
    | false => left; rfl
    | true => right; exact h5 he

end GS
