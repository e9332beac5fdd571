/- C113: what `verbose()` tells about a run. -/
import Verif.Lemmas.Flow
import Verif.Props.Verbose
import Verif.Props.EveryMode

namespace GS.Props
open GS GS.Witness
variable {n : Nat}

/-! ### C113: verbose output, whole transcript -/

/-- With or without output, a run does the same: same result, same final state, same events. -/
theorem C113_harmless (env : Env n) (o : Opt n) (loaded : Option (Except CkErr (Ckpt n))) :
    (runV env o loaded).1 = run env o loaded := runV_fst env o loaded

theorem fresh_state (env : Env n) (o : Opt n) (loaded : Option (Except CkErr (Ckpt n))) (h : Fresh o loaded) :
    (run env o loaded).final = (VAct.body env false (⟨started env o, 0, 0, []⟩, [])).1.1 := by
  rw [← runV_fst, runV_fresh env o loaded h]
  exact finish_final _

theorem resumed_state (env : Env n) (o : Opt n) (loaded : Option (Except CkErr (Ckpt n))) {c : Ckpt n}
    (h : Resumes o loaded c) : (run env o loaded).final = (VAct.body env true (⟨(started env o).restore c, 0, 0, []⟩,
      [.resumed c.currentIteration (c.solutionSet.getD []).length])).1.1 := by
  rw [← runV_fst, runV_resumes env o loaded h]
  exact finish_final _

theorem tells_run (env : Env n) (o : Opt n) (loaded : Option (Except CkErr (Ckpt n))) (h : Fresh o loaded) :
    Tells o.solset o.params ((run env o loaded).final, (runV env o loaded).2) := by
  rw [fresh_state env o loaded h, runV_fresh env o loaded h]
  exact tells_fresh env ⟨Relates.start (started env o) 0 0 (fun x hx => by cases hx) (fun x hx => by cases hx), rfl⟩

theorem told_run (env : Env n) (o : Opt n) (loaded : Option (Except CkErr (Ckpt n))) {c : Ckpt n}
    (h : Resumes o loaded c) :
    Relates c.solutionSet [] c.params [] [] ((run env o loaded).final, (runV env o loaded).2) := by
  rw [resumed_state env o loaded h, runV_resumes env o loaded h]
  exact tells_resumed env ⟨Relates.start ((started env o).restore c) 0 0
    (fun x hx => by rw [List.mem_singleton.1 hx]; rfl) (fun x hx => by rw [List.mem_singleton.1 hx]; rfl), rfl⟩

/-- The lines about the solution set, threshold changes and checkpoints are those of the events of the run, in order;
threshold values aside. -/
theorem C113_lines (env : Env n) (o : Opt n) (loaded : Option (Except CkErr (Ckpt n))) (t0 : F64) :
    (Fresh o loaded → ((runV env o loaded).2.filterMap VLine.base?).map Line.plain =
      (printed o.solset t0 (run env o loaded).final.trace).map Line.plain) ∧
    (∀ c, Resumes o loaded c → ((runV env o loaded).2.filterMap VLine.base?).map Line.plain =
      (printed c.solutionSet t0 (run env o loaded).final.trace).map Line.plain) := by
  refine ⟨fun h => ?_, fun c h => (told_run env o loaded h).lines _⟩
  obtain ⟨first, h1, _⟩ := tells_run env o loaded h
  exact h1.lines _

/-- The old value of every threshold line is the value that was really relaxed, with the run's threshold factor; the new
one is printed as `old + 0.1 |old|`. -/
theorem C113_thresholds_partial (env : Env n) (o : Opt n) (loaded : Option (Except CkErr (Ckpt n))) {it : Nat}
    {old new : F64} (hx : .base (.adjusting it old new) ∈ (runV env o loaded).2) :
    new = printedThreshold old ∧
    ((Fresh o loaded → .relaxed it (Opt.relaxed o.params.thresholdFactor old) ∈ (run env o loaded).final.trace) ∧
      ∀ c, Resumes o loaded c →
        .relaxed it (Opt.relaxed c.params.thresholdFactor old) ∈ (run env o loaded).final.trace) := by
  have hf : Fresh o loaded → new = printedThreshold old ∧
      .relaxed it (Opt.relaxed o.params.thresholdFactor old) ∈ (run env o loaded).final.trace := fun h => by
    obtain ⟨first, h1, _⟩ := tells_run env o loaded h
    exact h1.adj it old new hx
  have hr : ∀ c, Resumes o loaded c → new = printedThreshold old ∧
      .relaxed it (Opt.relaxed c.params.thresholdFactor old) ∈ (run env o loaded).final.trace :=
    fun c h => (told_run env o loaded h).adj it old new hx
  refine ⟨?_, fun h => (hf h).2, fun c h => (hr c h).2⟩
  by_cases h : Fresh o loaded
  · exact (hf h).1
  · unfold Fresh at h
    rw [not_or, not_forall] at h
    obtain ⟨h1, cfg, h2⟩ := h
    obtain ⟨h2, h3⟩ := Classical.not_imp.1 h2
    have h3 : cfg.autoResume = true := by simpa using h3
    cases hl : loaded with
    | none => exact absurd hl h1
    | some l =>
      cases l with
      | ok c => exact (hr c ⟨hl, cfg, h2, h3⟩).1
      | error e =>
        exfalso
        rw [hl] at hx
        have h4 : (Act.obsStart env ⟨o, 0, 0, []⟩).1.opt.tryResume (some (.error e)) = .error (.checkpoint e) := by
          unfold Opt.tryResume
          rw [show (Act.obsStart env ⟨o, 0, 0, []⟩).1.opt.ckpt = o.ckpt from rfl, h2]
          dsimp only
          rw [h3]
          rfl
        unfold runV at hx
        dsimp only at hx
        rw [h4] at hx
        cases hx

/-- The solutions announced as `Added local solution` in a fresh run are those, in order, that `process_local_solution`
reported as added, except for the one of stage 1; each is announced with the iteration of a search that found it. -/
theorem C113_announced_partial (env : Env n) (o : Opt n) (loaded : Option (Except CkErr (Ckpt n)))
    (h : Fresh o loaded) :
    (∃ first, (run env o loaded).final.trace.filterMap Event.accepted? =
        first ++ (runV env o loaded).2.filterMap VLine.announced? ∧
      (first = [] ∨ ∃ s p, first = [s] ∧ .search none p (.ok s) ∈ (run env o loaded).final.trace)) ∧
    ∀ it f q, .addedLocal it f q ∈ (runV env o loaded).2 →
      ∃ p, .search (some it) p (.ok ⟨q, f⟩) ∈ (run env o loaded).final.trace := by
  obtain ⟨first, h1, h2⟩ := tells_run env o loaded h
  exact ⟨⟨first, by have := h1.acc; rwa [List.append_nil] at this, h2⟩, h1.src⟩

/-- As above, for a resumed run: all solutions reported as added are announced. -/
theorem C113_announced_resumed_partial (env : Env n) (o : Opt n) (loaded : Option (Except CkErr (Ckpt n))) {c : Ckpt n}
    (h : Resumes o loaded c) :
    (run env o loaded).final.trace.filterMap Event.accepted? = (runV env o loaded).2.filterMap VLine.announced? ∧
    ∀ it f q, .addedLocal it f q ∈ (runV env o loaded).2 →
      ∃ p, .search (some it) p (.ok ⟨q, f⟩) ∈ (run env o loaded).final.trace := by
  have h1 := told_run env o loaded h
  exact ⟨by have := h1.acc; rwa [List.append_nil, List.nil_append] at this, h1.src⟩

/-- The best solution of the set meets the target. -/
def MeetsTarget (o : Opt n) (set : List (Sol n)) : Prop :=
  ∃ t b, o.target = some t ∧ bestSolution set = some b ∧ F64.le b.objective t = true ∧
    (o.exclude = true → withinBounds o.problem b.point = true)

theorem reached_meets {o : Opt n} {set : List (Sol n)} (hs : o.solset = some set) :
    o.targetReached = true ↔ MeetsTarget o set := by
  unfold Opt.targetReached MeetsTarget
  rw [hs]
  cases ht : o.target with
  | none => simp
  | some t =>
    cases hb : bestSolution set with
    | none => simp [hb]
    | some b =>
      cases he : o.exclude <;> simp [hb]

theorem MeetsTarget.same {a b : Opt n} (h : SameCfg a b) {set : List (Sol n)} :
    MeetsTarget b set ↔ MeetsTarget a set := by
  unfold MeetsTarget
  rw [h.target, h.exclude, h.problem]

/-- The first local search found a solution with objective `f`. -/
def FirstFound (m : M n) (f : F64) : Prop := ∃ p s, .search none p (.ok s) ∈ m.trace ∧ s.objective = f

theorem finish_fail {r : M n × Out} {e : Err} (h : r.2 = .fail e) : (finish r).result = .error e := by
  obtain ⟨m, o⟩ := r
  dsimp only at h
  subst h
  rfl

theorem go_seq {a b : Act n} (ha : ∀ m, (a m).2 = .cont) (hb : ∀ m, (b m).2 = .cont) (m : M n) :
    ((a ;; b) m).2 = .cont := by
  rw [Act.seq_def, if_pos (ha m)]
  exact hb _

theorem obsScatter_cont (env : Env n) (r : Scatter.Result n) (m : M n) : (Act.obsScatter env r m).2 = .cont :=
  go_seq (fun _ => rfl) (go_seq (invoke_cont env _) (go_seq (fun _ => rfl) (go_seq (invoke_cont env _)
    (go_seq (fun _ => rfl) (invoke_cont env _))))) m

theorem obsScatterDone_cont (env : Env n) (r : List (Pt n)) (v : List F64) (m : M n) :
    (Act.obsScatterDone env r v m).2 = .cont :=
  go_seq (fun _ => rfl) (go_seq (invoke_cont env _) (fun _ => rfl)) m

theorem body_fresh_course (env : Env n) (t : Talk n) :
    let r := VAct.body env false t
    SameCfg t.1.opt r.1.1.opt ∧
    (((∃ e, r.2 = .fail e) ∧ r.1.2.filter VLine.course = t.2.filter VLine.course ++ [.stage1]) ∨
     (∃ f, (∃ e, r.2 = .fail e) ∧ r.1.2.filter VLine.course = t.2.filter VLine.course ++ [.stage1, .local1 f] ∧
        FirstFound r.1.1 f) ∨
     (∃ f, r.2 = .stop ∧ r.1.1.opt.targetReached = true ∧
        r.1.2.filter VLine.course = t.2.filter VLine.course ++ [.stage1, .local1 f, .target1 t.1.opt.targetShown] ∧
        FirstFound r.1.1 f) ∨
     (∃ f w, r.2 ≠ .stop ∧
        r.1.2.filter VLine.course = t.2.filter VLine.course ++ (.stage1 :: .local1 f :: .stage2 :: w) ∧
        FirstFound r.1.1 f ∧
        (w = [] ∨ (∃ l k, t.1.opt.maxTime = some l ∧ F64.gt (env.clock k) l = true ∧ w = [.timeout l]) ∨
          ∃ x it, t.1.opt.target = some x ∧ w = [.targetIter it x, .targetBatch x]) ∧
        (r.2 = .cont → (r.1.1.opt.targetReached = true ↔ ∃ x, .targetBatch x ∈ w)))) := by
  intro r
  have hr : r = VAct.stage1 env (fun ref objs => VAct.quiet (fun m => ({ m with uc := 0 }, .cont)) ;;;
      VAct.stage2 env false ref (some objs)) t := rfl
  clear_value r
  subst hr
  unfold VAct.stage1
  rw [VAct.seq_go (a := VAct.say _) rfl]
  have hf : (t.2 ++ [VLine.stage1]).filter VLine.course = t.2.filter VLine.course ++ [.stage1] := by
    rw [List.filter_append]; rfl
  dsimp only
  split
  · exact ⟨SameCfg.refl _, Or.inl ⟨⟨_, rfl⟩, hf⟩⟩
  · rename_i q _
    obtain ⟨m1, hm1, sc1⟩ : ∃ m1 : M n, (∀ k : VAct n, (VAct.quiet (Act.log (.scatter q.evals)) ;;;
        VAct.quiet (if t.1.opt.tracks1 then Act.obsScatter env q else Act.skip) ;;;
        VAct.quiet (Act.obsScatterDone env (q.ref.map Prod.fst) (q.ref.map Prod.snd)) ;;; k)
          (t.1, t.2 ++ [.stage1]) = k (m1, t.2 ++ [.stage1])) ∧ SameCfg t.1.opt m1.opt := by
      generalize ha : (if t.1.opt.tracks1 then Act.obsScatter env q else Act.skip) = a
      have a1 : ∀ m, (a m).2 = .cont := by
        rw [← ha]; split
        · exact obsScatter_cont env q
        · exact fun _ => rfl
      have a2 : Steps env a := by
        rw [← ha]; split
        · exact Steps.obsScatter env q
        · exact Steps.skip env
      refine ⟨(Act.obsScatterDone env (q.ref.map Prod.fst) (q.ref.map Prod.snd)
        (a (Act.log (.scatter q.evals) t.1).1).1).1, fun k => ?_, ?_⟩
      · rw [VAct.seq_go (a := VAct.quiet (Act.log _)) rfl, VAct.seq_go (a := VAct.quiet a)
          (show VAct.quiet a _ = (((a (Act.log (.scatter q.evals) t.1).1).1, t.2 ++ [.stage1]), .cont) by
            rw [← a1 (Act.log (.scatter q.evals) t.1).1]; rfl),
          VAct.seq_go (a := VAct.quiet (Act.obsScatterDone env _ _))
          (show VAct.quiet (Act.obsScatterDone env _ _) _ = (((Act.obsScatterDone env (q.ref.map Prod.fst)
            (q.ref.map Prod.snd) (a (Act.log (.scatter q.evals) t.1).1).1).1, t.2 ++ [.stage1]), .cont) by
            rw [← obsScatterDone_cont env (q.ref.map Prod.fst) (q.ref.map Prod.snd)
              (a (Act.log (.scatter q.evals) t.1).1).1]; rfl)]
      · exact (a2 (Act.log (.scatter q.evals) t.1).1).cfg.trans (Steps.obsScatterDone env _ _ _).cfg
    rw [hm1]
    obtain ⟨s1, s2⟩ := stage1Local_opens env q.best (q.ref.map Prod.fst) (m1, t.2 ++ [.stage1])
    generalize VAct.stage1Local env q.best (q.ref.map Prod.fst) = st at *
    cases s2 with
    | failed h hc =>
      obtain ⟨e, he⟩ := h
      rw [VAct.seq, if_neg (by rw [he]; intro h; cases h)]
      exact ⟨sc1.trans s1, Or.inl ⟨⟨e, he⟩, hc.trans hf⟩⟩
    | @stuck f h hc hs =>
      obtain ⟨e, he⟩ := h
      rw [VAct.seq, if_neg (by rw [he]; intro h; cases h)]
      refine ⟨sc1.trans s1, Or.inr (Or.inl ⟨f, ⟨e, he⟩, hc.trans ?_, hs⟩)⟩
      rw [hf, List.append_assoc]; rfl
    | @target f he hr hc hs =>
      rw [VAct.seq, if_neg (by rw [he]; intro h; cases h)]
      refine ⟨sc1.trans s1, Or.inr (Or.inr (Or.inl ⟨f, he, hr, hc.trans ?_, hs⟩))⟩
      rw [hf, List.append_assoc, shown_same sc1]; rfl
    | @on f he hr hc hs =>
      rw [VAct.seq, if_pos he, VAct.seq_go (a := VAct.quiet _) rfl]
      generalize (st (m1, t.2 ++ [.stage1])).1 = t2 at *
      obtain ⟨w, w1, w2, w3, w4, w5, w6⟩ := stage2_closes env false (q.ref.map Prod.fst) (some (q.ref.map Prod.snd))
        ({ t2.1 with uc := 0 }, t2.2)
      have w7 : (VAct.stage2 env false (q.ref.map Prod.fst) (some (q.ref.map Prod.snd))
          ({ t2.1 with uc := 0 }, t2.2)).1.1 = (Act.stage2 env false (q.ref.map Prod.fst)
            (some (q.ref.map Prod.snd)) { t2.1 with uc := 0 }).1 := (Over.stage2 env false _ _ _).1
      have sct : SameCfg t.1.opt t2.1.opt := sc1.trans s1
      refine ⟨sct.trans w2, Or.inr (Or.inr (Or.inr ⟨f, w, w4, w3.trans ?_, ?_, ?_, fun hc => ⟨w6 hr hc, fun h => w5 h hc⟩⟩))⟩
      · dsimp only
        rw [hc, hf, List.append_assoc, List.append_assoc]; rfl
      · obtain ⟨p, s, h1, h2⟩ := hs
        refine ⟨p, s, ?_, h2⟩
        obtain ⟨es, hes⟩ := (Steps.stage2 env false (q.ref.map Prod.fst) (some (q.ref.map Prod.snd))
          { t2.1 with uc := 0 }).trace
        rw [w7, hes]
        exact List.mem_append_left _ h1
      · cases w1 with
        | none => exact Or.inl rfl
        | timeout h hk => exact Or.inr (Or.inl ⟨_, _, sct.maxTime ▸ h, hk, rfl⟩)
        | target h => exact Or.inr (Or.inr ⟨_, _, sct.target ▸ h, rfl⟩)
        | before h hr' => rw [show _ = t2.1.opt.targetReached from rfl, hr] at hr'; cases hr'

theorem finish_stop {r : M n × Out} (h : r.2 = .stop) (hr : r.1.opt.targetReached = true) :
    ∃ set, (finish r).result = .ok set ∧ MeetsTarget r.1.opt set := by
  obtain ⟨m, o⟩ := r
  dsimp only at h hr
  subst h
  cases hs : m.opt.solset with
  | none =>
    unfold Opt.targetReached at hr
    rw [hs] at hr
    split at hr
    · rename_i hh; cases hh
    · cases hr
  | some set =>
    refine ⟨set, ?_, (reached_meets hs).1 hr⟩
    unfold finish
    dsimp only
    rw [hs]

/-- The messages of a fresh run about its course: `Starting Stage 1` first; then the objective of the first local
solution; then either the target is announced and the run returns a set that meets it, or `Starting Stage 2` appears once
and is followed by at most one reason for stopping early. The time limit is announced only if there is one and the clock
exceeded it; the target is announced, twice, exactly if the returned set meets it. -/
theorem C113_course_fresh (env : Env n) (o : Opt n) (loaded : Option (Except CkErr (Ckpt n))) (h : Fresh o loaded) :
    let out := (runV env o loaded).2.filter VLine.course
    let r := run env o loaded
    ((∃ e, r.result = .error e) ∧ (out = [.stage1] ∨ ∃ f, out = [.stage1, .local1 f] ∧ FirstFound r.final f)) ∨
    (∃ f x set, r.result = .ok set ∧ o.target = some x ∧ MeetsTarget o set ∧
      out = [.stage1, .local1 f, .target1 x] ∧ FirstFound r.final f) ∨
    (∃ f w, out = .stage1 :: .local1 f :: .stage2 :: w ∧ FirstFound r.final f ∧
      (w = [] ∨ (∃ l k, o.maxTime = some l ∧ F64.gt (env.clock k) l = true ∧ w = [.timeout l]) ∨
        ∃ x it, o.target = some x ∧ w = [.targetIter it x, .targetBatch x]) ∧
      ∀ set, r.result = .ok set → (MeetsTarget o set ↔ ∃ x it, w = [.targetIter it x, .targetBatch x])) := by
  intro out r
  have hout : out = (VAct.body env false (⟨started env o, 0, 0, []⟩, [])).1.2.filter VLine.course := by
    show (runV env o loaded).2.filter _ = _
    rw [runV_fresh env o loaded h]
  have hres : r.result = (finish ((VAct.body env false (⟨started env o, 0, 0, []⟩, [])).1.1,
      (VAct.body env false (⟨started env o, 0, 0, []⟩, [])).2)).result := by
    show (run env o loaded).result = _
    rw [← runV_fst, runV_fresh env o loaded h]
  have hfin : r.final = (VAct.body env false (⟨started env o, 0, 0, []⟩, [])).1.1 := fresh_state env o loaded h
  clear_value out r
  obtain ⟨sc, hb⟩ := body_fresh_course env (⟨started env o, 0, 0, []⟩, [])
  generalize VAct.body env false (⟨started env o, 0, 0, []⟩, []) = b at *
  have so : SameCfg o (started env o) := ⟨rfl, rfl, rfl, rfl, rfl, rfl, rfl, rfl, rfl, rfl, rfl, rfl, rfl, rfl⟩
  have scb : SameCfg o b.1.1.opt := so.trans sc
  rw [hfin, hout]
  rcases hb with ⟨⟨e, he⟩, hc⟩ | ⟨f, ⟨e, he⟩, hc, hf⟩ | ⟨f, he, hr, hc, hf⟩ | ⟨f, w, he, hc, hf, hw, hr⟩
  · exact Or.inl ⟨⟨e, by rw [hres]; exact finish_fail he⟩, Or.inl hc⟩
  · exact Or.inl ⟨⟨e, by rw [hres]; exact finish_fail he⟩, Or.inr ⟨f, hc, hf⟩⟩
  · obtain ⟨set, h1, h2⟩ := finish_stop (r := (b.1.1, b.2)) he hr
    have ht := reached_target hr
    rw [scb.target, shown_same scb] at ht
    exact Or.inr (Or.inl ⟨f, o.targetShown, set, by rw [hres]; exact h1, ht, (MeetsTarget.same scb).1 h2, hc, hf⟩)
  · refine Or.inr (Or.inr ⟨f, w, hc, hf, hw, fun set hset => ?_⟩)
    obtain ⟨f1, f2⟩ := finish_ok (by rw [← hres]; exact hset)
    have hcont : b.2 = .cont := by
      cases hb : b.2 with
      | cont => rfl
      | stop => exact absurd hb he
      | fail e => exact absurd hb (f2 e)
    rw [← MeetsTarget.same scb, ← reached_meets f1, hr hcont]
    rcases hw with rfl | ⟨l, k, _, _, rfl⟩ | ⟨x, it, _, rfl⟩
    · simp
    · simp
    · exact ⟨fun _ => ⟨x, it, rfl⟩, fun _ => ⟨x, by simp⟩⟩

/-- The messages of a resumed run about its course: two lines about the checkpoint with its iteration and number of
solutions, `Starting Stage 2`, and at most one reason for stopping early. -/
theorem C113_course_resumed (env : Env n) (o : Opt n) (loaded : Option (Except CkErr (Ckpt n))) {c : Ckpt n}
    (h : Resumes o loaded c) :
    ∃ w, (runV env o loaded).2.filter VLine.course =
        .resumed c.currentIteration (c.solutionSet.getD []).length :: .resuming c.currentIteration :: .stage2 :: w ∧
      (w = [] ∨ (∃ l k, o.maxTime = some l ∧ F64.gt (env.clock k) l = true ∧ w = [.timeout l]) ∨
        (∃ x it, c.targetObjective = some x ∧ w = [.targetIter it x, .targetBatch x]) ∨
        ∃ x set, c.targetObjective = some x ∧ c.solutionSet = some set ∧
          MeetsTarget ((started env o).restore c) set ∧ w = [.targetBatch x]) ∧
      ∀ set, (run env o loaded).result = .ok set → (∃ x, .targetBatch x ∈ w) →
        MeetsTarget ((started env o).restore c) set := by
  have hres : (run env o loaded).result = (finish
      ((VAct.body env true (⟨(started env o).restore c, 0, 0, []⟩,
        [.resumed c.currentIteration (c.solutionSet.getD []).length])).1.1,
      (VAct.body env true (⟨(started env o).restore c, 0, 0, []⟩,
        [.resumed c.currentIteration (c.solutionSet.getD []).length])).2)).result := by
    rw [← runV_fst, runV_resumes env o loaded h]
  rw [hres, runV_resumes env o loaded h]
  dsimp only
  have hb : VAct.body env true (⟨(started env o).restore c, 0, 0, []⟩,
      [.resumed c.currentIteration (c.solutionSet.getD []).length]) =
      VAct.stage2 env true c.referenceSet none (⟨(started env o).restore c, c.unchangedCycles, 0, []⟩,
        [.resumed c.currentIteration (c.solutionSet.getD []).length, .resuming c.currentIteration]) := rfl
  rw [hb]
  obtain ⟨w, w1, w2, w3, w4, w5, w6⟩ := stage2_closes env true c.referenceSet none
    (⟨(started env o).restore c, c.unchangedCycles, 0, []⟩,
        [.resumed c.currentIteration (c.solutionSet.getD []).length, .resuming c.currentIteration])
  refine ⟨w, w3, ?_, fun set hset hx => ?_⟩
  · cases w1 with
    | none => exact Or.inl rfl
    | timeout h hk => exact Or.inr (Or.inl ⟨_, _, h, hk, rfl⟩)
    | target h => exact Or.inr (Or.inr (Or.inl ⟨_, _, h, rfl⟩))
    | before h hr =>
      refine Or.inr (Or.inr (Or.inr ?_))
      cases hs : c.solutionSet with
      | none =>
        exfalso
        unfold Opt.targetReached at hr
        rw [show ((started env o).restore c).solset = none from hs] at hr
        split at hr
        · rename_i hh; cases hh
        · cases hr
      | some set => exact ⟨_, set, h, rfl, (reached_meets (o := (started env o).restore c) hs).1 hr, rfl⟩
  · obtain ⟨f1, f2⟩ := finish_ok hset
    generalize VAct.stage2 env true c.referenceSet none (⟨(started env o).restore c, c.unchangedCycles, 0, []⟩,
        [.resumed c.currentIteration (c.solutionSet.getD []).length, .resuming c.currentIteration]) = b at *
    have hcont : b.2 = .cont := by
      cases hb : b.2 with
      | cont => rfl
      | stop => exact absurd hb w4
      | fail e => exact absurd hb (f2 e)
    exact (MeetsTarget.same w2).1 ((reached_meets f1).1 (w5 hx hcont))

/-- Local search that moves from the far end to 3 and reports the objective 4 there. -/
def slipTo3 (_ : SolverType) (_ : SolverConfig) (p : Pt 1) : Except LErr (Sol 1 × Nat) :=
  if F64.le (num 4) (p 0) then .ok (⟨pt (num 3), num 4⟩, 1) else .ok (⟨p, p 0⟩, 1)

/-- The sequential demo run with the tolerances 4 and 0. -/
def looseOpt : Opt 1 := demoSeq.withTolerance (num 4) F64.zero

/-- The lines of an output that tell where an added solution came from. -/
def tellsX0 : List (VLine 1) → List (Nat × F64 × F64) :=
  List.filterMap fun l => match l with
    | .addedLocal it f x0 => some (it, f, x0 0)
    | _ => none

/-- Where the stage-2 searches started, in which iteration. -/
def startsOf : List (Event 1) → List (Nat × F64) :=
  List.filterMap fun e => match e with
    | .search (some it) p _ => some (it, p 0)
    | _ => none

/-- C113 fails for the start point: both searches of stage 2 start from 4, and the solution of the first is added; the
message says `x0 = 3`, the solution itself. -/
theorem C113_x0_violated : ∃ (env : Env 1) (o : Opt 1), Built o ∧ Fresh o none ∧ env.rt.Valid ∧
    startsOf (run env o none).final.trace = [(0, num 4), (1, num 4)] ∧
    tellsX0 (runV env o none).2 = [(0, num 4, num 3)] := by
  refine ⟨env slipTo3, looseOpt, Built.tolerance _ _ demoSeq_built, Or.inl rfl, rt_valid, ?_, ?_⟩ <;> decide +kernel

/-- C113 fails for a new best solution: the demo run finds one in iteration 0 and returns it, and no line says that a
local solution was added in stage 2. -/
theorem C113_best_violated : ∃ (env : Env 1) (o : Opt 1), Built o ∧ Fresh o none ∧ env.rt.Valid ∧
    (((run env o none).final.trace.filterMap fun e => match e with
      | .processed s v => some (s.objective, v)
      | _ => none) = [(num 1, .first), (F64.lit 1 2, .newBest)] ∧
    (0, num 4) ∈ startsOf (run env o none).final.trace ∧
    ((run env o none).result.toOption.map (·.map Sol.objective)) = some [F64.lit 1 2] ∧
    tellsX0 (runV env o none).2 = []) := by
  refine ⟨env jump, demo.setTarget (F64.lit 1 2), Built.target _ demo_built, Or.inl rfl, rt_valid, ?_⟩
  decide +kernel

/-- One letter for each line about the course of a run. -/
def letters : List (VLine 1) → List Char :=
  List.filterMap fun l => match l with
    | .resumed _ _ => some 'r'
    | .resuming _ => some 'R'
    | .stage1 => some '1'
    | .local1 _ => some 'l'
    | .target1 _ => some 't'
    | .stage2 => some '2'
    | .timeout _ => some 'x'
    | .targetBatch _ => some 'T'
    | .targetIter _ _ => some 'i'
    | .addedLocal _ _ _ => some 'a'
    | .base _ => none

/-- All ways a successful fresh run can go: to the end, to the target in stage 1 and in stage 2, to the time limit. -/
example : letters (runV (env slipTo3) looseOpt none).2 = ['1', 'l', '2', 'a'] ∧
    letters (runV (env stay) (demo.setTarget (num 1)) none).2 = ['1', 'l', 't'] ∧
    letters (runV (env jump) (demo.setTarget (F64.lit 1 2)) none).2 = ['1', 'l', '2', 'i', 'T'] ∧
    letters (runV { env stay with clock := fun _ => num 5 } (demo.setMaxTime (num 1)) none).2 =
      ['1', 'l', '2', 'x'] := by decide +kernel

/-- Resumed runs, from every checkpoint of a parallel run. -/
example : savedIn (run wideEnv wideSaving none).final.trace ≠ [] ∧
    ∀ c ∈ savedIn (run wideEnv wideSaving none).final.trace, Resumes wideSaving (some (.ok c)) c ∧
      letters (runV wideEnv wideSaving (some (.ok c))).2 = ['r', 'R', '2'] :=
  ⟨by decide +kernel, fun c hc => ⟨⟨rfl, _, rfl, rfl⟩, by revert c; decide +kernel⟩⟩

end GS.Props
