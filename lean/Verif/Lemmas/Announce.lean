/- What the output of a run says about the solution set, the threshold and added solutions. -/
import Verif.Lemmas.Transcript

namespace GS
variable {n : Nat}

section
variable {set0 : Option (List (Sol n))} {acc0 : List (Sol n)} {par : Params}

theorem Relates.weaken {known known' : List (Event n)} {pend : List (Sol n)} {t : Talk n}
    (h : Relates set0 acc0 par known pend t) (hk : ∀ e ∈ known', e ∈ t.1.trace) :
    Relates set0 acc0 par known' pend t :=
  ⟨h.params, h.set, h.lines, h.adj, h.acc, h.src, hk⟩

/-- One event and its lines. -/
theorem Relates.step {known : List (Event n)} {t : Talk n} (h : Relates set0 acc0 par known [] t) {m : M n} {e : Event n}
    {l : List (Line n)} (hp : m.opt.params = t.1.opt.params) (ht : m.trace = t.1.trace ++ [e])
    (hs : m.opt.solset = storeStep t.1.opt.solset e)
    (hl : ∀ x, l.map Line.plain = (eventLines t.1.opt.solset x e).map Line.plain)
    (ha : ∀ it old new, .adjusting it old new ∈ l → new = printedThreshold old ∧
      e = .relaxed it (Opt.relaxed par.thresholdFactor old)) :
    Relates set0 acc0 par known (e.accepted?.toList) (m, t.2 ++ l.map .base) where
  params := hp.trans h.params
  set := by
    show m.opt.solset = m.trace.foldl storeStep set0
    rw [hs, h.set, ht, List.foldl_append]; rfl
  lines := by
    intro b
    show ((t.2 ++ l.map VLine.base).filterMap VLine.base?).map Line.plain = (printedFrom set0 b m.trace).map Line.plain
    have hb : (l.map VLine.base).filterMap VLine.base? = l := by
      rw [List.filterMap_map]
      exact List.filterMap_some
    rw [ht, printedFrom_app, List.filterMap_append, hb, List.map_append, List.map_append, h.lines b, ← h.set]
    show _ = _ ++ List.map Line.plain (eventLines _ _ e ++ [])
    rw [List.append_nil, hl]
  adj := by
    intro it old new hx
    show _ ∧ _ ∈ m.trace
    rw [ht]
    rcases List.mem_append.1 hx with hx | hx
    · exact ⟨(h.adj it old new hx).1, List.mem_append_left _ (h.adj it old new hx).2⟩
    · obtain ⟨y, hy, hxy⟩ := List.mem_map.1 hx
      injection hxy with hxy
      subst hxy
      obtain ⟨h1, h2⟩ := ha it old new hy
      exact ⟨h1, List.mem_append_right _ (by rw [h2]; exact List.mem_singleton.2 rfl)⟩
  acc := by
    show m.trace.filterMap _ = acc0 ++ (t.2 ++ l.map VLine.base).filterMap _ ++ _
    have hb : (l.map VLine.base).filterMap VLine.announced? = [] :=
      List.filterMap_eq_nil_iff.2 fun x hx => by
        obtain ⟨y, _, rfl⟩ := List.mem_map.1 hx
        rfl
    rw [ht, List.filterMap_append, h.acc, List.filterMap_append, hb, List.append_nil, List.append_nil]
    congr 1
  src := by
    intro it f q hx
    rcases List.mem_append.1 hx with hx | hx
    · obtain ⟨p, hp⟩ := h.src it f q hx
      exact ⟨p, by show _ ∈ m.trace; rw [ht]; exact List.mem_append_left _ hp⟩
    · obtain ⟨y, _, hy⟩ := List.mem_map.1 hx
      cases hy
  known := fun x hx => by show x ∈ m.trace; rw [ht]; exact List.mem_append_left _ (h.known x hx)

/-- Processing a solution, before it is announced. -/
theorem Relates.process {known : List (Event n)} {t : Talk n} (h : Relates set0 acc0 par known [] t) (s : Sol n) :
    Relates set0 acc0 par known (if (t.1.opt.process s).2.returned then [s] else [])
      ({ t.1 with opt := (t.1.opt.process s).1, trace := t.1.trace ++ [.processed s (t.1.opt.process s).2] },
        t.2 ++ (processLines t.1.opt.solset s (t.1.opt.process s).2).map .base) := by
  have := h.step (m := { t.1 with opt := (t.1.opt.process s).1, trace := t.1.trace ++ [.processed s (t.1.opt.process s).2] })
    (e := .processed s (t.1.opt.process s).2) (l := processLines t.1.opt.solset s (t.1.opt.process s).2)
    (by
      show (t.1.opt.process s).1.params = t.1.opt.params
      unfold Opt.process
      dsimp only
      (repeat' split) <;> rfl)
    rfl
    (by
      show (t.1.opt.process s).1.solset = newSet _ t.1.opt.solset s
      rw [Opt.process_solset, Opt.process_snd])
    (fun _ => rfl)
    (fun it old new hx => by
      exfalso
      cases hv : (t.1.opt.process s).2 <;> rw [hv] at hx <;> simp [processLines] at hx)
  have he : (Event.accepted? (.processed s (t.1.opt.process s).2)).toList =
      if (t.1.opt.process s).2.returned then [s] else [] := by
    unfold Event.accepted?
    dsimp only
    split <;> rfl
  rw [he] at this
  exact this

/-- Announcing what was accepted. -/
theorem Relates.tell {known : List (Event n)} {t : Talk n} {s : Sol n} {v : Verdict} {it : Nat} {p : Pt n}
    (h : Relates set0 acc0 par known (if v.returned then [s] else []) t)
    (hk : .search (some it) p (.ok s) ∈ known) : Relates set0 acc0 par known [] (VAct.tell it s v t).1 := by
  unfold VAct.tell VAct.say
  dsimp only
  cases hv : v.returned with
  | false =>
    rw [hv] at h
    rw [if_neg (by simp)] at h ⊢
    rw [List.append_nil]
    exact h
  | true =>
    rw [hv, if_pos rfl] at h
    rw [if_pos rfl]
    refine ⟨h.params, h.set, fun b => ?_, fun i old new hx => ?_, ?_, fun i f q hx => ?_, h.known⟩
    · show ((t.2 ++ [_]).filterMap _).map _ = _
      rw [List.filterMap_append]
      show (_ ++ []).map _ = _
      rw [List.append_nil]
      exact h.lines b
    · rcases List.mem_append.1 hx with hx | hx
      · exact h.adj i old new hx
      · cases List.mem_singleton.1 hx
    · show _ = acc0 ++ (t.2 ++ [_]).filterMap _ ++ []
      rw [List.filterMap_append, h.acc, List.append_nil, List.append_assoc]
      rfl
    · rcases List.mem_append.1 hx with hx | hx
      · exact h.src i f q hx
      · cases List.mem_singleton.1 hx
        exact ⟨p, h.known _ hk⟩

end

/-- The piece of code keeps what the output says. Used in proofs only; no counterpart in /repo. -/
def Keeps (set0 : Option (List (Sol n))) (acc0 : List (Sol n)) (par : Params) (known : List (Event n))
    (a : VAct n) : Prop :=
  ∀ t, Relates set0 acc0 par known [] t → Relates set0 acc0 par known [] (a t).1

section
variable {set0 : Option (List (Sol n))} {acc0 : List (Sol n)} {par : Params} {known : List (Event n)}

theorem Keeps.seq {a b : VAct n} (ha : Keeps set0 acc0 par known a) (hb : Keeps set0 acc0 par known b) :
    Keeps set0 acc0 par known (a ;;; b) := by
  intro t h
  unfold VAct.seq
  split
  · exact hb _ (ha t h)
  · exact ha t h

theorem Keeps.quiet {a : Act n} (ha : Calm a) : Keeps set0 acc0 par known (VAct.quiet a) := fun _ h => h.quiet ha

theorem Keeps.all {l : List (VAct n)} (h : ∀ a ∈ l, Keeps set0 acc0 par known a) :
    Keeps set0 acc0 par known (VAct.all l) := by
  induction l with
  | nil => exact Keeps.quiet Calm.skip
  | cons a l ih => exact (h a (by simp)).seq (ih fun x hx => h x (by simp [hx]))

theorem Keeps.say {l : List (VLine n)} (h1 : ∀ x ∈ l, x.base? = none) (h2 : ∀ x ∈ l, x.announced? = none) :
    Keeps set0 acc0 par known (VAct.say l) := fun _ h => h.says h1 h2

theorem Keeps.stopIfTarget (i : Nat) : Keeps set0 acc0 par known (VAct.stopIfTarget i) := by
  intro t h
  unfold VAct.stopIfTarget
  split
  · exact h.says (fun x hx => by rw [List.mem_singleton.1 hx]; rfl) (fun x hx => by rw [List.mem_singleton.1 hx]; rfl)
  · exact h

theorem Keeps.reject (i : Nat) : Keeps set0 acc0 par known (VAct.reject i) := by
  intro t h
  unfold VAct.reject
  split
  · rename_i hw
    generalize hx : Opt.relaxed t.1.opt.params.thresholdFactor t.1.opt.merit.threshold = x
    have hr : (Act.reject i t.1).1 =
        { t.1 with opt := { t.1.opt with merit := t.1.opt.merit.update x }, uc := 0,
                   trace := t.1.trace ++ [.relaxed i x] } := by
      subst hx
      unfold Act.reject
      rw [if_pos hw]
    dsimp only
    rw [hr]
    exact h.step (e := .relaxed i x)
      (l := [.adjusting i t.1.opt.merit.threshold (printedThreshold t.1.opt.merit.threshold)]) rfl rfl rfl
      (fun _ => rfl) (fun it old new hy => by
        cases List.mem_singleton.1 hy
        exact ⟨rfl, by rw [← hx, h.params]⟩)
  · rename_i hw
    have : (Act.reject i t.1).1 = { t.1 with uc := t.1.uc + 1 } := by
      unfold Act.reject
      rw [if_neg hw]
    exact h.silent (es := []) (by rw [this]) (by rw [this]) (by rw [this, List.append_nil]) (fun e he => by cases he)

theorem Keeps.writeCkpt (env : Env n) : Keeps set0 acc0 par known (VAct.writeCkpt env) := by
  intro t h
  unfold VAct.writeCkpt
  split
  · rename_i e he
    refine h.silent (es := [.saveFailed t.1.opt.curIter (t.1.opt.createCkpt (env.stamp t.1.saves))]) ?_ ?_ ?_
      (fun x hx => by rw [List.mem_singleton.1 hx]; rfl) <;>
    · unfold Act.writeCkpt
      dsimp only
      rw [he]
  · rename_i he
    have hw : Act.writeCkpt env t.1 = ({ t.1 with saves := t.1.saves + 1, trace := t.1.trace ++
        [.saved t.1.opt.curIter (t.1.opt.createCkpt (env.stamp t.1.saves))] }, .cont) := by
      unfold Act.writeCkpt
      dsimp only
      rw [he]
    unfold VAct.seq VAct.quiet
    dsimp only
    rw [hw, if_pos rfl]
    exact h.step (e := .saved t.1.opt.curIter (t.1.opt.createCkpt (env.stamp t.1.saves)))
      (l := [.checkpoint t.1.opt.curIter]) rfl rfl rfl (fun _ => rfl)
      (fun it old new hx => by cases List.mem_singleton.1 hx)

theorem Keeps.save (env : Env n) : Keeps set0 acc0 par known (VAct.save env) := by
  intro t h
  unfold VAct.save
  split
  · exact h
  · split
    · exact h
    · split
      · exact Keeps.writeCkpt env t h
      · exact h

theorem Keeps.saveFinal (env : Env n) : Keeps set0 acc0 par known (VAct.saveFinal env) := by
  intro t h
  unfold VAct.saveFinal
  split
  · exact h
  · exact Keeps.writeCkpt env t h

/-- Processing a solution, something quiet that cannot fail, the announcement, and the rest. -/
theorem Keeps.announce {i : Nat} {p : Pt n} {s : Sol n} (hk : .search (some i) p (.ok s) ∈ known)
    {q : Verdict → Act n} {r : VAct n} (hq : ∀ v, Calm (q v)) (hc : ∀ v m, (q v m).2 = .cont)
    (hr : Keeps set0 acc0 par known r) :
    Keeps set0 acc0 par known (VAct.process s fun v => VAct.quiet (q v) ;;; VAct.tell i s v ;;; r) := by
  intro t h
  have h1 := h.process s
  unfold VAct.process
  dsimp only
  split
  · rename_i hp
    rw [hp] at h1
    simpa [Verdict.returned, hp] using h1
  · generalize (t.1.opt.process s).2 = v at *
    have h2 := h1.quiet (hq v)
    unfold VAct.seq
    rw [show (VAct.quiet (q v) _).2 = .cont from hc v _, if_pos rfl,
      show (VAct.tell i s v _).2 = .cont from rfl, if_pos rfl]
    exact hr _ (h2.tell hk)

theorem quiet_seq (a b : Act n) (r : VAct n) :
    VAct.quiet a ;;; VAct.quiet b ;;; r = VAct.quiet (a ;; b) ;;; r := by
  funext t
  unfold VAct.seq VAct.quiet
  dsimp only
  rw [Act.seq_def]
  by_cases hc : (a t.1).2 = .cont
  · rw [if_pos hc, if_pos hc]
  · rw [if_neg hc, if_neg hc, if_neg hc]

theorem Keeps.knowing {e : Event n} {a : VAct n} {m : M n} {t : Talk n} (h : Relates set0 acc0 par known [] (m, t.2))
    (he : e ∈ m.trace) (ha : Keeps set0 acc0 par (e :: known) a) : Relates set0 acc0 par known [] (a (m, t.2)).1 := by
  have h1 : Relates set0 acc0 par (e :: known) [] (m, t.2) := h.weaken fun x hx => by
    rcases List.mem_cons.1 hx with rfl | hx
    · exact he
    · exact h.known x hx
  have h2 := ha _ h1
  exact h2.weaken fun x hx => h2.known x (List.mem_cons_of_mem _ hx)

theorem Keeps.search (env : Env n) (ty : SolverType) (cfg : SolverConfig) (i : Option Nat) (p : Pt n)
    {k : Sol n → Nat → VAct n} (hk : ∀ s e, Keeps set0 acc0 par (.search i p (.ok s) :: known) (k s e)) :
    Keeps set0 acc0 par known (VAct.search env ty cfg i p k) := by
  intro t h
  unfold VAct.search
  split
  · exact h.silent rfl rfl rfl (fun x hx => by rw [List.mem_singleton.1 hx]; rfl)
  · rename_i s e _
    exact Keeps.knowing (t := t) (h.silent rfl rfl rfl (fun x hx => by rw [List.mem_singleton.1 hx]; rfl))
      (List.mem_append_right _ (List.mem_singleton.2 rfl)) (hk s _)

theorem Keeps.getMerit (objs : Option (List F64)) (i : Nat) (p : Pt n) {k : F64 → VAct n}
    (hk : ∀ v, Keeps set0 acc0 par known (k v)) : Keeps set0 acc0 par known (VAct.getMerit objs i p k) := by
  intro t h
  have h1 : Relates set0 acc0 par known []
      (if objs.isNone then { t.1 with trace := t.1.trace ++ [.evaluate i p] } else t.1, t.2) := by
    split
    · exact h.silent rfl rfl rfl (fun x hx => by rw [List.mem_singleton.1 hx]; rfl)
    · exact h
  unfold VAct.getMerit
  dsimp only
  split
  · exact h1
  · refine Keeps.seq (Keeps.quiet ?_) (hk _) _ h1
    split
    · exact Calm.obsEvals 1
    · exact Calm.skip

theorem Keeps.localSeq (env : Env n) (i : Nat) (p : Pt n) (v : F64) :
    Keeps set0 acc0 par known (VAct.localSeq env i p v) := by
  intro t h
  exact (Keeps.quiet (Calm.setThreshold v)).seq (Keeps.search env _ _ _ _ fun s e =>
    Keeps.announce (List.mem_cons_self) (fun _ => Calm.obsLocal _ _) (fun _ _ => rfl) (Keeps.stopIfTarget _)) t h

theorem Keeps.stepSeq (env : Env n) (r : Bool) (st : Nat) (objs : Option (List F64)) (it : Nat × Pt n) :
    Keeps set0 acc0 par known (VAct.stepSeq env r st objs it) := by
  unfold VAct.stepSeq
  split
  · exact Keeps.quiet Calm.skip
  · refine (Keeps.quiet (Calm.beginIter env _)).seq ((Keeps.quiet (Calm.obsIter _)).seq (Keeps.getMerit _ _ _
      fun v t h => ?_))
    refine (Keeps.quiet (Calm.log rfl)).seq (Keeps.seq ?_ ((Keeps.quiet (Calm.callback env _)).seq
      (Keeps.save env))) t h
    split
    · exact Keeps.localSeq env _ _ _
    · exact Keeps.reject _

theorem Keeps.quickPar (env : Env n) (i : Nat) : Keeps set0 acc0 par known (VAct.quickPar env i) :=
  (Keeps.quiet (Calm.beginIter env _)).seq ((Keeps.reject _).seq ((Keeps.quiet (Calm.obsIter _)).seq
    ((Keeps.quiet (Calm.callback env _)).seq (Keeps.save env))))

theorem Keeps.resultPar (env : Env n) (i : Nat) (v : F64) (s : Sol n) (e : Nat) {p : Pt n}
    (hk : .search (some i) p (.ok s) ∈ known) : Keeps set0 acc0 par known (VAct.resultPar env i v s e) :=
  (Keeps.quiet (Calm.beginIter env _)).seq ((Keeps.quiet (Calm.setThreshold v)).seq
    (Keeps.announce hk (fun _ => Calm.obsLocal _ _) (fun _ _ => rfl) ((Keeps.quiet (Calm.obsIter _)).seq
      ((Keeps.quiet (Calm.callback env _)).seq ((Keeps.stopIfTarget _).seq (Keeps.save env))))))

theorem Keeps.singlePar (env : Env n) (i : Nat) (p : Pt n) (v : F64) :
    Keeps set0 acc0 par known (VAct.singlePar env i p v) := by
  intro t h
  refine (Keeps.quiet (Calm.beginIter env _)).seq ((Keeps.quiet (Calm.setThreshold v)).seq
    (Keeps.search env _ _ _ _ fun s e => ?_)) t h
  simp only [quiet_seq]
  exact Keeps.announce (List.mem_cons_self)
    (fun _ => ((Calm.obsLocal _ _).seq (Calm.obsIter _)).seq (Calm.invoke env _))
    (fun _ m => invoke_cont env _ _) ((Keeps.stopIfTarget _).seq (Keeps.save env))

theorem Keeps.groupPar (env : Env n) (k : Nat) (c : List (Nat × Pt n × F64)) :
    Keeps set0 acc0 par known (VAct.groupPar env k c) := by
  intro t h
  have h1 : Relates set0 acc0 par known []
      ({ t.1 with trace := t.1.trace ++ c.map (Act.solveEvent env t.1.opt) }, t.2) :=
    h.silent rfl rfl rfl (fun x hx => by obtain ⟨_, _, rfl⟩ := List.mem_map.1 hx; rfl)
  unfold VAct.groupPar
  split
  · exact h1
  · rename_i rs hrs
    have hm := parCollect_ok hrs
    have h2 : Relates set0 acc0 par (c.map (Act.solveEvent env t.1.opt) ++ known) []
        ({ t.1 with trace := t.1.trace ++ c.map (Act.solveEvent env t.1.opt) }, t.2) :=
      h1.weaken fun e he => by
        rcases List.mem_append.1 he with he | he
        · exact List.mem_append_right _ he
        · exact List.mem_append_left _ (h.known e he)
    have h3 := Keeps.all (l := rs.map fun r => VAct.resultPar env r.1 r.2.1 r.2.2.1 r.2.2.2) (fun a ha => by
      obtain ⟨r, hr, rfl⟩ := List.mem_map.1 ha
      have : Except.ok r ∈ c.map (Act.solveTask env t.1.opt) := by
        rw [hm]; exact List.mem_map.2 ⟨r, hr, rfl⟩
      obtain ⟨x, hx, hxr⟩ := List.mem_map.1 this
      refine Keeps.resultPar env _ _ _ _ (p := x.2.1) (List.mem_append_left _ (List.mem_map.2 ⟨x, hx, ?_⟩))
      unfold Act.solveTask at hxr
      unfold Act.solveEvent
      split at hxr
      · cases hxr
      · rename_i s e hse
        cases hxr
        rw [hse]; rfl) _ h2
    exact h3.weaken fun e he => h3.known e (List.mem_append_right _ he)

theorem Keeps.localsPar (env : Env n) (k : Nat) (c : List (Nat × Pt n × F64)) :
    Keeps set0 acc0 par known (VAct.localsPar env k c) := by
  intro t h
  unfold VAct.localsPar
  split
  · exact Keeps.groupPar env k c t h
  · refine Keeps.all (fun a ha => ?_) t h
    obtain ⟨r, _, rfl⟩ := List.mem_map.1 ha
    exact Keeps.singlePar env _ _ _

theorem Keeps.afterEval (env : Env n) (objs : Option (List F64)) (k : Nat) (vals : List (Nat × Pt n × F64)) :
    Keeps set0 acc0 par known (VAct.afterEval env objs k vals) := by
  intro t h
  unfold VAct.afterEval
  refine Keeps.seq (Keeps.quiet ?_) (Keeps.seq (Keeps.all fun a ha => ?_) (Keeps.localsPar env _ _)) _
    (h.silent rfl rfl rfl (fun x hx => by obtain ⟨_, _, rfl⟩ := List.mem_map.1 hx; rfl))
  · split
    · exact Calm.obsEvals _
    · exact Calm.skip
  · obtain ⟨r, _, rfl⟩ := List.mem_map.1 ha
    exact Keeps.quickPar env _

theorem Relates.logEvals {t : Talk n} (h : Relates set0 acc0 par known [] t) (objs : Option (List F64))
    (its : List (Nat × Pt n)) : Relates set0 acc0 par known [] (Act.logEvals objs its t.1, t.2) := by
  unfold Act.logEvals
  split
  · exact h.silent rfl rfl rfl (fun x hx => by obtain ⟨_, _, rfl⟩ := List.mem_map.1 hx; rfl)
  · exact h

theorem Keeps.procBatch (env : Env n) (r : Bool) (st : Nat) (objs : Option (List F64)) (eff : Nat)
    (its : List (Nat × Pt n)) : Keeps set0 acc0 par known (VAct.procBatch env r st objs eff its) := by
  unfold VAct.procBatch
  split
  · unfold VAct.batchPar
    generalize (if r = true then _ else _ : List (Nat × Pt n)) = l
    cases l with
    | nil => exact Keeps.quiet Calm.skip
    | cons it l =>
      intro t h
      unfold VAct.batchParItems
      dsimp only
      split
      · exact h.logEvals _ _
      · exact Keeps.afterEval env objs _ _ _ (h.logEvals _ _)
  · refine Keeps.all fun a ha => ?_
    obtain ⟨i, _, rfl⟩ := List.mem_map.1 ha
    exact Keeps.stepSeq env r st objs i

theorem Keeps.loop (env : Env n) (r : Bool) (st : Nat) (objs : Option (List F64)) (eff k : Nat)
    (bs : List (List (Nat × Pt n))) : Keeps set0 acc0 par known (VAct.loop env r st objs eff k bs) := by
  induction bs generalizing k with
  | nil => exact Keeps.quiet Calm.skip
  | cons b bs ih =>
    intro t h
    unfold VAct.loop
    split
    · exact h.says (fun x hx => by rw [List.mem_singleton.1 hx]; rfl)
        (fun x hx => by rw [List.mem_singleton.1 hx]; rfl)
    · have h1 := Keeps.procBatch env r st objs eff b t h
      cases hr : VAct.procBatch env r st objs eff b t with
      | mk t' out =>
        rw [hr] at h1
        have hend : Relates set0 acc0 par known [] (t'.1, t'.2 ++ [.targetBatch t'.1.opt.targetShown]) :=
          Relates.says h1 (fun x hx => by rw [List.mem_singleton.1 hx]; rfl)
            (fun x hx => by rw [List.mem_singleton.1 hx]; rfl)
        cases out with
        | fail e => exact h1
        | cont =>
          dsimp only
          split
          · exact hend
          · exact ih _ _ h1
        | stop =>
          dsimp only
          split
          · exact hend
          · exact ih _ _ h1

theorem Keeps.stage2Main (env : Env n) (r : Bool) (st : Nat) (ref : List (Pt n)) (objs : Option (List F64)) :
    Keeps set0 acc0 par known (VAct.stage2Main env r st ref objs) := by
  intro t h
  unfold VAct.stage2Main
  split
  · exact h
  · exact (Keeps.loop env _ _ _ _ _ _).seq ((Keeps.quiet (Calm.obsEnd2 env)).seq (Keeps.saveFinal env)) t h

theorem Keeps.stage2 (env : Env n) (r : Bool) (ref : List (Pt n)) (objs : Option (List F64)) :
    Keeps set0 acc0 par known (VAct.stage2 env r ref objs) := by
  refine (Keeps.say (fun x hx => by rw [List.mem_singleton.1 hx]; rfl)
    (fun x hx => by rw [List.mem_singleton.1 hx]; rfl)).seq ((Keeps.quiet (Calm.obsStart2 env)).seq fun t h => ?_)
  split
  · exact Keeps.stage2Main env _ _ _ _ t h
  · split
    · exact h
    · exact (Keeps.quiet (Calm.setSeed _)).seq (Keeps.stage2Main env _ _ _ _) t h

theorem Relates.start (o : Opt n) (u sv : Nat) {l : List (VLine n)} (h1 : ∀ x ∈ l, x.base? = none)
    (h2 : ∀ x ∈ l, x.announced? = none) : Relates o.solset [] o.params [] [] (⟨o, u, sv, []⟩, l) where
  params := rfl
  set := rfl
  lines := fun b => by
    show (l.filterMap _).map _ = _
    rw [List.filterMap_eq_nil_iff.2 h1]; rfl
  adj := fun it old new hx => by cases h1 _ hx
  acc := by
    show _ = [] ++ l.filterMap _ ++ []
    rw [List.filterMap_eq_nil_iff.2 h2]; rfl
  src := fun it f q hx => by cases h2 _ hx
  known := fun e he => by cases he

/-- What the whole output of a run says; `first` is what the first local search contributed. Used in proofs only; no
counterpart in /repo. -/
def Tells (set0 : Option (List (Sol n))) (par : Params) (t : Talk n) : Prop :=
  ∃ first, Relates set0 first par [] [] t ∧ (first = [] ∨ ∃ s p, first = [s] ∧ .search none p (.ok s) ∈ t.1.trace)

/-- As `Tells`, and nothing has been announced yet. Used in proofs only; no counterpart in /repo. -/
def Tells0 (set0 : Option (List (Sol n))) (par : Params) (t : Talk n) : Prop :=
  Tells set0 par t ∧ t.2.filterMap VLine.announced? = []

/-- The first local search found `s`, which is in the set. Used in proofs only; no counterpart in /repo. -/
theorem Relates.settle {p : Pt n} {s : Sol n} {c : Bool} {t : Talk n}
    (h : Relates set0 [] par [.search none p (.ok s)] (if c then [s] else []) t)
    (hn : t.2.filterMap VLine.announced? = []) : Tells0 set0 par t := by
  refine ⟨⟨if c then [s] else [], ⟨h.params, h.set, h.lines, h.adj, ?_, h.src, fun e he => by cases he⟩, ?_⟩, hn⟩
  · rw [h.acc, hn]; simp
  · cases c with
    | false => exact Or.inl rfl
    | true => exact Or.inr ⟨s, p, rfl, h.known _ (List.mem_singleton.2 rfl)⟩

theorem Tells.keeps {a : VAct n} {t : Talk n} (ha : ∀ acc known, Keeps set0 acc par known a)
    (h : Tells set0 par t) : Tells set0 par (a t).1 := by
  obtain ⟨first, h1, h2⟩ := h
  rcases h2 with h2 | ⟨s, p, h2, h3⟩
  · exact ⟨first, ha _ _ t h1, Or.inl h2⟩
  · have h4 : Relates set0 first par [.search none p (.ok s)] [] t :=
      h1.weaken fun e he => by rw [List.mem_singleton.1 he]; exact h3
    have h5 := ha _ _ t h4
    exact ⟨first, h5.weaken (fun e he => by cases he), Or.inr ⟨s, p, h2, h5.known _ (List.mem_singleton.2 rfl)⟩⟩

/-- The piece of code leads from `P` to `Q`. Used in proofs only; no counterpart in /repo. -/
def Thru (P : Talk n → Prop) (a : VAct n) (Q : Talk n → Prop) : Prop := ∀ t, P t → Q (a t).1

theorem Thru.seq {P Q R : Talk n → Prop} {a b : VAct n} (ha : Thru P a Q) (hb : Thru Q b R) (h : ∀ t, Q t → R t) :
    Thru P (a ;;; b) R := by
  intro t ht
  unfold VAct.seq
  split
  · exact hb _ (ha t ht)
  · exact h _ (ha t ht)

/-- Before the first local solution is processed. Used in proofs only; no counterpart in /repo. -/
def Early (set0 : Option (List (Sol n))) (par : Params) (known : List (Event n)) (t : Talk n) : Prop :=
  Relates set0 [] par known [] t ∧ t.2.filterMap VLine.announced? = []

/-- After the first local solution was processed. Used in proofs only; no counterpart in /repo. -/
def Late (set0 : Option (List (Sol n))) (par : Params) (p : Pt n) (s : Sol n) (t : Talk n) : Prop :=
  (∃ c : Bool, Relates set0 [] par [.search none p (.ok s)] (if c then [s] else []) t) ∧
    t.2.filterMap VLine.announced? = []

theorem Early.quiet {a : Act n} (ha : Calm a) : Thru (Early set0 par known) (VAct.quiet a) (Early set0 par known) :=
  fun _ h => ⟨h.1.quiet ha, h.2⟩

theorem Early.say {l : List (VLine n)} (h1 : ∀ x ∈ l, x.base? = none) (h2 : ∀ x ∈ l, x.announced? = none) :
    Thru (Early set0 par known) (VAct.say l) (Early set0 par known) := fun t h =>
  ⟨h.1.says h1 h2, by
    show (t.2 ++ l).filterMap _ = _
    rw [List.filterMap_append, h.2, List.filterMap_eq_nil_iff.2 h2]; rfl⟩

theorem Late.quiet {p : Pt n} {s : Sol n} {a : Act n} (ha : Calm a) :
    Thru (Late set0 par p s) (VAct.quiet a) (Late set0 par p s) :=
  fun _ h => ⟨h.1.imp fun _ h => h.quiet ha, h.2⟩

theorem Late.say {p : Pt n} {s : Sol n} {l : List (VLine n)} (h1 : ∀ x ∈ l, x.base? = none)
    (h2 : ∀ x ∈ l, x.announced? = none) : Thru (Late set0 par p s) (VAct.say l) (Late set0 par p s) := fun t h =>
  ⟨h.1.imp fun _ h => h.says h1 h2, by
    show (t.2 ++ l).filterMap _ = _
    rw [List.filterMap_append, h.2, List.filterMap_eq_nil_iff.2 h2]; rfl⟩

theorem Late.process {p : Pt n} {s : Sol n} {k : Verdict → VAct n}
    (hk : ∀ v, Thru (Late set0 par p s) (k v) (Late set0 par p s)) :
    Thru (Early set0 par [.search none p (.ok s)]) (VAct.process s k) (Late set0 par p s) := by
  intro t h
  have h1 := h.1.process s
  have h2 : Late set0 par p s
      ({ t.1 with opt := (t.1.opt.process s).1, trace := t.1.trace ++ [.processed s (t.1.opt.process s).2] },
        t.2 ++ (processLines t.1.opt.solset s (t.1.opt.process s).2).map .base) := ⟨⟨_, h1⟩, by
    show (t.2 ++ List.map _ _).filterMap _ = _
    rw [List.filterMap_append, h.2]
    exact List.filterMap_eq_nil_iff.2 fun x hx => by obtain ⟨y, _, rfl⟩ := List.mem_map.1 hx; rfl⟩
  unfold VAct.process
  dsimp only
  split
  · exact h2
  · exact hk _ _ h2

theorem tells_stage1Local (env : Env n) (p : Pt n) (ref : List (Pt n)) :
    Thru (Early set0 par []) (VAct.stage1Local env p ref) (Tells0 set0 par) := by
  intro t h
  unfold VAct.stage1Local
  split
  · exact ⟨⟨[], h.1.silent rfl rfl rfl (fun x hx => by rw [List.mem_singleton.1 hx]; rfl), Or.inl rfl⟩, h.2⟩
  · rename_i s e _
    have h1 : Early set0 par [.search none p (.ok s)]
        ({ t.1 with trace := t.1.trace ++ [.search none p (.ok s)] }, t.2) :=
      ⟨Relates.weaken (h.1.silent (m := { t.1 with trace := t.1.trace ++ [.search none p (.ok s)] }) rfl rfl rfl
        (fun x hx => by rw [List.mem_singleton.1 hx]; rfl))
        (fun x hx => by rw [List.mem_singleton.1 hx]; exact List.mem_append_right _ (List.mem_singleton.2 rfl)), h.2⟩
    have early_late : ∀ t, Early set0 par [.search none p (.ok s)] t → Late set0 par p s t :=
      fun t h => ⟨⟨false, h.1⟩, h.2⟩
    have h2 : Thru (Early set0 par [.search none p (.ok s)]) _ (Late set0 par p s) :=
      (Early.quiet (Calm.setThreshold s.objective)).seq ((Early.say (l := [.local1 s.objective])
        (fun x hx => by rw [List.mem_singleton.1 hx]; rfl) (fun x hx => by rw [List.mem_singleton.1 hx]; rfl)).seq
        ((Early.quiet (Calm.obsLocal1 env s (if t.1.opt.tracks1 then e else 0))).seq (Late.process
          (k := fun _ => fun t' =>
            if t'.1.opt.targetReached then
              (VAct.say [.target1 t'.1.opt.targetShown] ;;; VAct.quiet (Act.obsEnd1 env) ;;;
                VAct.quiet fun m => (m, .stop)) t'
            else (VAct.quiet (Act.storeRef ref) ;;; VAct.quiet (Act.obsEnd1 env)) t') fun v t' h' => by
          dsimp only
          split
          · exact (Late.say (fun x hx => by rw [List.mem_singleton.1 hx]; rfl)
              (fun x hx => by rw [List.mem_singleton.1 hx]; rfl)).seq ((Late.quiet (Calm.obsEnd1 env)).seq
                (Late.quiet (Calm.same fun _ => ⟨rfl, rfl, rfl⟩)) fun _ h => h) (fun _ h => h) t' h'
          · exact (Late.quiet (Calm.storeRef ref)).seq (Late.quiet (Calm.obsEnd1 env)) (fun _ h => h) t' h')
          early_late) early_late) early_late
    obtain ⟨⟨c, h3⟩, h4⟩ := h2 _ h1
    exact h3.settle h4

theorem tells_fresh (env : Env n) {t : Talk n} (h : Early set0 par [] t) :
    Tells set0 par (VAct.body env false t).1 := by
  have e0 : ∀ t, Early set0 par [] t → Tells set0 par t := fun t h => ⟨[], h.1, Or.inl rfl⟩
  have hs : ∀ r v, Thru (Tells0 set0 par) (VAct.quiet (fun m => ({ m with uc := 0 }, .cont)) ;;;
      VAct.stage2 env false r v) (Tells set0 par) := fun r v t h => h.1.keeps fun _ _ =>
    (Keeps.quiet (Calm.same fun _ => ⟨rfl, rfl, rfl⟩)).seq (Keeps.stage2 env _ _ _)
  unfold VAct.body
  rw [if_neg (by simp)]
  refine Thru.seq (P := Early set0 par []) (Early.say (fun x hx => by rw [List.mem_singleton.1 hx]; rfl)
    (fun x hx => by rw [List.mem_singleton.1 hx]; rfl)) (R := Tells set0 par) (fun t h => ?_) e0 t h
  split
  · exact e0 t h
  · rename_i r _
    refine (Early.quiet (Calm.log rfl)).seq ((Early.quiet ?_).seq ((Early.quiet (Calm.obsScatterDone env _ _)).seq
      ((tells_stage1Local env _ _).seq (hs _ _) fun t h => h.1) e0) e0) e0 t h
    split
    · exact Calm.obsScatter env r
    · exact Calm.skip

theorem tells_resumed (env : Env n) {t : Talk n} (h : Early set0 par [] t) :
    Relates set0 [] par [] [] (VAct.body env true t).1 := by
  unfold VAct.body
  rw [if_pos rfl]
  exact (Keeps.say (l := [.resuming t.1.opt.curIter]) (fun x hx => by rw [List.mem_singleton.1 hx]; rfl)
    (fun x hx => by rw [List.mem_singleton.1 hx]; rfl)).seq (Keeps.stage2 env _ _ _) _
    (h.1.silent (es := []) rfl rfl (List.append_nil _).symm (fun e he => by cases he))

end
end GS
