/- C102: a program whose run is complete is started again. -/
import Verif.Props.Stored
import Verif.Props.SavesPar

namespace GS.Props
open GS F64 GS.Witness Manager Dir
variable {n : Nat}

theorem verdicts_numbers (tr : List (Event n)) :
    (verdicts tr).map Prod.fst = (examined tr).map Prod.fst := by
  induction tr with
  | nil => rfl
  | cons e tr ih =>
    cases e with
    | examine it p v ok =>
      show it :: (verdicts tr).map Prod.fst = it :: (examined tr).map Prod.fst
      rw [ih]
    | _ => exact ih

theorem writes_numbers (tr : List (Event n)) :
    (writes tr).filterMap (fun | .iteration i => some i | _ => none) = (examined tr).map Prod.fst := by
  induction tr with
  | nil => rfl
  | cons e tr ih =>
    cases e with
    | examine it p v ok =>
      show it :: (writes tr).filterMap _ = it :: (examined tr).map Prod.fst
      rw [ih]
    | callback k b x =>
      show (((Event.callback k b x :: tr : List (Event n)).filterMap Event.mark).filter Mark.isWrite).filterMap _ = _
      rw [List.filterMap_cons]
      show _ = (examined tr).map Prod.fst
      rw [← ih]
      unfold Event.mark
      dsimp only
      split
      · rename_i h
        split at h
        · cases h
        · rfl
      · rename_i h
        split at h
        · cases h; rfl
        · cases h
    | _ => exact ih

theorem savedBlock_numbers (f st k : Nat) :
    ((List.range' st k).flatMap (savedBlock f)).filterMap (fun | .iteration i => some i | _ => none) =
      List.range' st k := by
  induction k generalizing st with
  | zero => rfl
  | succ k ih =>
    rw [List.range'_succ, List.flatMap_cons, List.filterMap_append, ih]
    unfold savedBlock
    split <;> rfl

theorem StartsAt.shapeSeq {env : Env n} {o : Opt n} {loaded : Option (Except CkErr (Ckpt n))} {st eff : Nat}
    (h : StartsAt env o loaded st eff) (he : ¬ 1 < eff) (hp : Polite env) :
    ∃ r, run env o loaded = finish r ∧ Shape o.cbKey o.ckpt st r := by
  cases h with
  | fresh hb hf =>
    refine ⟨_, run_fresh env o loaded hf, ?_⟩
    have h := body_fresh_mk hp ⟨started env o, 0, 0, []⟩ he
    have h2 : (⟨started env o, 0, 0, []⟩ : M n).sig.cur = 0 := hb.unused.curIter
    have := RunMk.shape (s := (⟨started env o, 0, 0, []⟩ : M n).sig) rfl (by rw [h2]; exact h)
    rw [h2] at this
    rw [← started_key env o]
    exact this
  | @resumed c hr =>
    refine ⟨_, run_resumes env o loaded hr, ?_⟩
    obtain ⟨ref, h⟩ := body_resumed_mk hp ⟨(started env o).restore c, 0, 0, []⟩ he
    have hk : ((started env o).restore c).cbKey = o.cbKey := started_key env o
    have := RunMk.shape (s := (⟨(started env o).restore c, 0, 0, []⟩ : M n).sig) rfl (Or.inr ⟨ref, h⟩)
    rw [← hk]
    exact this

/-- The last number of a batch in the order of work is one of the batch. -/
theorem lastWork {eff st : Nat} {v : List (Nat × Bool)} {bs : List (List (Nat × Bool))}
    (h : InBatches eff st v bs) (hv : v ≠ []) :
    ∃ i, (bs.flatMap workOrder).getLast? = some i ∧ i < st + v.length ∧ st + v.length ≤ i + eff := by
  obtain ⟨hfl, hnum, hsize, -⟩ := h
  rcases List.eq_nil_or_concat bs with rfl | ⟨bs', b, rfl⟩
  · exact absurd hfl hv
  rw [List.concat_eq_append] at *
  have hb := hsize b (by simp)
  have hw : workOrder b ≠ [] := by
    intro hw
    unfold workOrder rejectedNos passedNos at hw
    rw [List.append_eq_nil_iff, List.map_eq_nil_iff, List.map_eq_nil_iff, List.filter_eq_nil_iff,
      List.filter_eq_nil_iff] at hw
    cases b with
    | nil => simp at hb
    | cons x xs =>
      have h1 := hw.1 x (by simp)
      have h2 := hw.2 x (by simp)
      cases hx : x.2 <;> simp [hx] at h1 h2
  refine ⟨(workOrder b).getLast hw, ?_, ?_⟩
  · rw [List.flatMap_append, List.getLast?_append]
    simp [List.getLast?_eq_getLast_of_ne_nil hw]
  have hmem : (workOrder b).getLast hw ∈ b.map Prod.fst := by
    have := List.getLast_mem hw
    generalize (workOrder b).getLast hw = i at this ⊢
    unfold workOrder rejectedNos passedNos at this
    rcases List.mem_append.1 this with h | h <;> obtain ⟨x, hx, rfl⟩ := List.mem_map.1 h
    · exact List.mem_map_of_mem (List.mem_filter.1 hx).1
    · exact List.mem_map_of_mem (List.mem_filter.1 hx).1
  have hvs : v = bs'.flatten ++ b := by rw [hfl]; simp
  have hn : b.map Prod.fst = List.range' (st + bs'.flatten.length) b.length := by
    rw [hvs, List.map_append, List.length_append, ← List.range'_append_1] at hnum
    exact (List.append_inj hnum (by rw [List.length_map, List.length_range'])).2
  rw [hn, List.mem_range'_1] at hmem
  rw [hvs, List.length_append]
  omega

/-- The number of the last checkpoint of a run that started at `st`: one of the last batch, or `st` if there
was none. -/
theorem final_number {env : Env n} {o : Opt n} {loaded : Option (Except CkErr (Ckpt n))} {st eff : Nat}
    {cfg : CkptConfig} {set : List (Sol n)} (h : StartsAt env o loaded st eff) (hp : Polite env)
    (hc : o.ckpt = some cfg) (hok : (run env o loaded).result = .ok set)
    (ht : (run env o loaded).final.opt.targetReached = false) {pre : List (Event n)} {it : Nat} {c : Ckpt n}
    (hl : (run env o loaded).final.trace = pre ++ [.saved it c]) :
    st + (examined (run env o loaded).final.trace).length ≤ it + max 1 eff ∧
      (examined (run env o loaded).final.trace ≠ [] →
        it < st + (examined (run env o loaded).final.trace).length) := by
  by_cases he : 1 < eff
  · have hlast : (writtenNos (run env o loaded).final.trace).getLast? = some it := by
      rw [hl]
      unfold writtenNos
      rw [marks_append, List.filterMap_append]
      show (_ ++ [it]).getLast? = _
      simp
    have hn := verdicts_numbers (run env o loaded).final.trace
    have hlen := congrArg List.length hn
    rw [List.length_map, List.length_map] at hlen
    rcases C49_parallel h he hp hc hok with ⟨h1, _⟩ | ⟨bs, hb, h1 | ⟨h1, _⟩⟩
    · rw [h1] at hlast; cases hlast
    · rw [h1, List.getLast?_append] at hlast
      simp only [List.getLast?_singleton, Option.some_or, Option.some.injEq] at hlast
      rw [← hlen]
      cases hv : verdicts (run env o loaded).final.trace with
      | nil =>
        rw [hv] at hb hlen
        have hbs : bs = [] := by
          rcases bs with _ | ⟨b, bs⟩
          · rfl
          · have h1 := hb.flat
            have h2 := (hb.size b (by simp)).1
            have h3 := congrArg List.length h1
            simp only [List.length_nil, List.flatten_cons, List.length_append] at h3
            omega
        rw [hbs] at hlast
        have hit : st = it := hlast
        refine ⟨by simp; omega, fun hx => absurd (List.length_eq_zero_iff.1 hlen.symm) hx⟩
      | cons x xs =>
        obtain ⟨i, e1, e2, e3⟩ := lastWork hb (by rw [hv]; simp)
        rw [e1] at hlast
        have hit : i = it := hlast
        rw [← hv]
        omega
    · rw [ht] at h1; cases h1
  · obtain ⟨r, hr, hsh⟩ := h.shapeSeq he hp
    rw [hr] at hok ht hl ⊢
    rw [finish_final] at ht hl ⊢
    obtain ⟨_, hnf⟩ := finish_ok hok
    have hm : marks r.1.trace = marks pre ++ [.written it] := by rw [hl, marks_append]; rfl
    have hcont : r.2 = .cont := by
      cases ho : r.2 with
      | cont => rfl
      | stop => have := hsh.stop ho; rw [hm] at this; simp at this
      | fail e => exact absurd ho (hnf e)
    rw [hc] at hsh
    obtain ⟨k, hk | ⟨hk, _⟩⟩ := shape_schedule hsh hcont
    · have hnum := writes_numbers r.1.trace
      rw [hk, List.filterMap_append, savedBlock_numbers] at hnum
      have hlen := congrArg List.length hnum
      simp only [List.length_append, List.length_range', List.length_map] at hlen
      have hw : writes r.1.trace = writes pre ++ [.written it] := by
        unfold writes
        rw [hm, List.filter_append]; rfl
      rw [hk] at hw
      have := (List.append_inj' hw rfl).2
      simp only [List.cons.injEq, Mark.written.injEq, and_true] at this
      have h0 : (List.filterMap (fun | Mark.iteration i => some i | _ => none)
        [Mark.written (st + (k - 1))]).length = 0 := rfl
      rw [h0] at hlen
      refine ⟨by omega, fun hx => ?_⟩
      have : 0 < (examined r.1.trace).length := List.length_pos_iff.2 hx
      omega
    · rw [ht] at hk; cases hk

theorem restore_target {o : Opt n} {m : M n} {c : Ckpt n} (hc : SameCfg o m.opt)
    (hs : c.solutionSet = m.opt.solset) (ht : c.targetObjective = o.target)
    (he : c.excludeOutOfBounds = o.exclude) : (o.restore c).targetReached = m.opt.targetReached := by
  unfold Opt.targetReached
  show (match c.targetObjective, c.solutionSet with
    | some t, some set => match bestSolution set with
      | some b => F64.le b.objective t && (!c.excludeOutOfBounds || withinBounds o.problem b.point)
      | none => false
    | _, _ => false) = _
  rw [hs, ht, he, hc.target, hc.exclude, hc.problem]
  rfl

theorem passed_sub (tr : List (Event n)) : (passed tr).Sublist (examined tr) := by
  induction tr with
  | nil => exact List.Sublist.slnil
  | cons e tr ih =>
    rcases e with _ | _ | ⟨it, p, v, ok⟩ | _ | _ | _ | _ | _ | _
    case examine =>
      cases ok
      · exact List.Sublist.cons _ ih
      · exact List.Sublist.cons_cons _ ih
    all_goals exact ih

theorem found_le (tr : List (Event n)) :
    (foundSols tr).length ≤ (searched tr).length + (firstSearches tr).length := by
  induction tr with
  | nil => exact Nat.le_refl _
  | cons e tr ih =>
    cases e with
    | search it p r =>
      have h1 : foundSols (.search it p r :: tr) = (match r with | .ok s => [s] | _ => []) ++ foundSols tr := by
        cases r <;> rfl
      rw [h1]
      cases it with
      | none =>
        have h2 : firstSearches (.search none p r :: tr) = p :: firstSearches tr := rfl
        have h3 : searched (.search none p r :: tr) = searched tr := rfl
        rw [h2, h3]
        cases r <;> simp only [List.length_append, List.length_cons, List.length_nil] <;> omega
      | some i =>
        have h2 : firstSearches (.search (some i) p r :: tr) = firstSearches tr := rfl
        have h3 : searched (.search (some i) p r :: tr) = (i, p) :: searched tr := rfl
        rw [h2, h3]
        cases r <;> simp only [List.length_append, List.length_cons, List.length_nil] <;> omega
    | _ => exact ih

/-- What is known of the last checkpoint of a complete fresh run. -/
theorem last_checkpoint {env : Env n} {o : Opt n} {loaded : Option (Except CkErr (Ckpt n))}
    {cfg : CkptConfig} {set : List (Sol n)} (hb : Built o) (hf : Fresh o loaded) (hp : Polite env)
    (hc : o.ckpt = some cfg) (hv : env.rt.Valid) (hok : (run env o loaded).result = .ok set)
    (ht : ¬ TargetMet o (run env o loaded).final.trace)
    (htime : ∀ t k, o.maxTime = some t → F64.gt (env.clock k) t = false) {pre : List (Event n)}
    {it : Nat} {c : Ckpt n} (hl : (run env o loaded).final.trace = pre ++ [.saved it c]) :
    c.solutionSet = some set ∧ (o.restore c).targetReached = false ∧ c.params = o.params ∧
      (min o.params.iterations c.referenceSet.length ≤ c.currentIteration + max 1 (batchSize env o 0)) ∧
      (0 < min o.params.iterations c.referenceSet.length →
        c.currentIteration < min o.params.iterations c.referenceSet.length) ∧ set ≠ [] ∧
      (o.restore c).setCfg = o.setCfg := by
  obtain ⟨e1, e2, -⟩ := freshAll (env := env) hb hf
  have hne : (started env o).solset ≠ some [] := by
    show o.solset ≠ some []
    rw [hb.unused.solset]; simp
  have hreach : Reach env ⟨started env o, 0, 0, []⟩ (run env o loaded).final := by
    rw [e2]; exact Steps.body env false _
  have hh := histInv hne hreach
  obtain ⟨c1, c2, c3, c4, c5, c6, c7, c8, c9, c10⟩ := savedOk (o := started env o) hne hreach pre it c [] hl
  have hset : (run env o loaded).final.opt.solset = some set := by
    rw [e1] at hok ⊢
    rw [finish_final]
    exact (finish_ok hok).1
  have hsol : c.solutionSet = (run env o loaded).final.opt.solset := by
    rw [c2, hh.solset, hl, procs_append]
    simp [procs]
  have htr : (run env o loaded).final.opt.targetReached = false := by
    cases hx : (run env o loaded).final.opt.targetReached
    · rfl
    · exact absurd ((targetReached_iff hh).1 hx) ht
  obtain ⟨sc, sd, s1, s2, s3, s4, -⟩ := C95_examines_all hv hb hf hok htime ht
  obtain ⟨⟨sc', r1, r2⟩, -⟩ := C101_fresh (env := env) (it := it) (c := c) hb hf (by rw [hl]; simp)
  rw [s1] at r1
  cases r1
  have hlen : (examined (run env o loaded).final.trace).length = min o.params.iterations c.referenceSet.length := by
    have := congrArg List.length s4
    rw [List.length_map, List.length_range] at this
    rw [this, r2, List.length_map]
  obtain ⟨f1, f2⟩ := final_number (StartsAt.fresh (env := env) hb hf) hp hc hok htr hl
  rw [hlen] at f1 f2
  refine ⟨hsol.trans hset, ?_, c4, ?_, ?_, ?_, ?_⟩
  · have hcfg : SameCfg o (run env o loaded).final.opt :=
      SameCfg.trans (b := started env o) (by constructor <;> rfl) hh.cfg
    rw [restore_target (o := o) (m := (run env o loaded).final) hcfg hsol c5 c6, htr]
  · rw [c1]
    show _ ≤ it + max 1 (o.effBatch env.threads 0)
    omega
  · intro hx
    rw [c1]
    have := f2 (by intro h; rw [h] at hlen; simp at hlen; omega)
    omega
  · intro h
    rw [h, hh.solset] at hset
    exact setFold_ne_nil _ hne hset
  · unfold Opt.setCfg
    show SetCfg.mk o.problem c.excludeOutOfBounds c.absTol c.relTol c.params.distanceFactor = _
    rw [c6, c9, c10, c4]
    rfl

/-- Part of C102, in every mode: a program whose run ended normally (the time limit and the target not
reached) and that is started again, with the last checkpoint, examines again at most as many points as a batch has (one, in
sequential runs), starts at most one local search from each, and otherwise keeps the solution set.
Missing from C102: these points are examined again, and searched from, see `C102_violated`. -/
theorem C102_one_batch_partial {env env2 : Env n} {o : Opt n} {loaded : Option (Except CkErr (Ckpt n))}
    {cfg : CkptConfig} {set : List (Sol n)} (hb : Built o) (hf : Fresh o loaded) (hp : Polite env)
    (hc : o.ckpt = some cfg) (ha : cfg.autoResume = true) (hv : env.rt.Valid)
    (hok : (run env o loaded).result = .ok set)
    (ht : ¬ TargetMet o (run env o loaded).final.trace)
    (htime : ∀ t k, o.maxTime = some t → F64.gt (env.clock k) t = false) {pre : List (Event n)}
    {it : Nat} {c : Ckpt n} (hl : (run env o loaded).final.trace = pre ++ [.saved it c]) :
    (examined (run env2 o (some (.ok c))).final.trace).length ≤ max 1 (batchSize env o 0) ∧
    (searched (run env2 o (some (.ok c))).final.trace).Sublist
      (examined (run env2 o (some (.ok c))).final.trace) ∧
    firstSearches (run env2 o (some (.ok c))).final.trace = [] ∧
    ∀ set2, (run env2 o (some (.ok c))).result = .ok set2 →
      ∃ found, found.length ≤ (examined (run env2 o (some (.ok c))).final.trace).length ∧
        setFold o.setCfg (some set) found = some set2 := by
  obtain ⟨k1, k2, k3, k4, -, k6, k7⟩ := last_checkpoint hb hf hp hc hv hok ht htime hl
  have hr : Resumes o (some (.ok c)) c := ⟨rfl, cfg, hc, ha⟩
  have hne : c.solutionSet ≠ some [] := by
    rw [k1]
    intro h
    cases h
    exact k6 rfl
  have hsub : (searched (run env2 o (some (.ok c))).final.trace).Sublist
      (examined (run env2 o (some (.ok c))).final.trace) :=
    (C96_resumed (env := env2) hr hne k2).searched.sublist.trans (passed_sub _)
  have hfirst : firstSearches (run env2 o (some (.ok c))).final.trace = [] := by
    rw [run_resumes env2 o _ hr, finish_final]
    obtain ⟨t, a, b, _⟩ := bound_body_resumed env2 ⟨(started env2 o).restore c, 0, 0, []⟩
    rw [a, List.nil_append]
    exact List.length_eq_zero_iff.1 (by omega)
  refine ⟨?_, hsub, hfirst, fun set2 h2 => ?_⟩
  · obtain ⟨k, h1, -⟩ := C47_in_order_partial (env := env2) hr hne k2
    have := congrArg List.length h1
    rw [List.length_map, List.length_take, List.length_drop, List.length_take, k3] at this
    rw [this]
    omega
  · refine ⟨procs (run env2 o (some (.ok c))).final.trace, ?_, ?_⟩
    · have a := (C96_resumed (env := env2) hr hne k2).recorded.length_le
      have b := found_le (run env2 o (some (.ok c))).final.trace
      rw [hfirst] at b
      have := hsub.length_le
      simp only [List.length_nil] at b
      omega
    · have hh := resumed_hist (env := env2) hr hne
      have h3 := hh.solset
      have h4 : (run env2 o (some (.ok c))).final.opt.solset = some set2 := by
        rw [run_resumes env2 o _ hr] at h2 ⊢
        rw [finish_final]
        exact (finish_ok h2).1
      rw [h4] at h3
      rw [show ((started env2 o).restore c).setCfg = o.setCfg from k7,
        show ((started env2 o).restore c).solset = c.solutionSet from rfl, k1] at h3
      exact h3.symm

/-- Part of C102: the first solution returned before is not lost: the second run returns it or a strictly
better one first. -/
theorem C102_first_partial {env env2 : Env n} {o : Opt n} {loaded : Option (Except CkErr (Ckpt n))}
    {cfg : CkptConfig} {hd : Sol n} {tl set2 : List (Sol n)} (hb : Built o) (hf : Fresh o loaded) (hp : Polite env)
    (hc : o.ckpt = some cfg) (ha : cfg.autoResume = true) (hv : env.rt.Valid)
    (hok : (run env o loaded).result = .ok (hd :: tl))
    (ht : ¬ TargetMet o (run env o loaded).final.trace)
    (htime : ∀ t k, o.maxTime = some t → F64.gt (env.clock k) t = false) {pre : List (Event n)}
    {it : Nat} {c : Ckpt n} (hl : (run env o loaded).final.trace = pre ++ [.saved it c])
    (htol : F64.le F64.zero o.absTol = true) (h2 : (run env2 o (some (.ok c))).result = .ok set2) :
    ∃ hd' tl', set2 = hd' :: tl' ∧ (hd' = hd ∨ F64.lt hd'.objective hd.objective = true) := by
  obtain ⟨-, -, -, h⟩ := C102_one_batch_partial (env2 := env2) hb hf hp hc ha hv hok ht htime hl
  obtain ⟨found, -, h⟩ := h set2 h2
  obtain ⟨hd', tl', e, k⟩ := head_fold (c := o.setCfg) htol found (hd := hd) (tl := tl)
  rw [e] at h
  cases h
  exact ⟨hd', tl', rfl, k⟩

/-- A resumed run that succeeds has a batch size. -/
theorem batch_of_ok {env : Env n} {o : Opt n} {loaded : Option (Except CkErr (Ckpt n))} {c : Ckpt n}
    {set : List (Sol n)} (hr : Resumes o loaded c) (hok : (run env o loaded).result = .ok set) :
    batchSize env (o.restore c) c.currentIteration ≠ 0 := by
  intro hz
  rw [run_resumes env o loaded hr] at hok
  obtain ⟨-, hnf⟩ := finish_ok hok
  apply hnf .panic
  unfold Act.body
  rw [if_pos rfl]
  unfold Act.stage2
  rw [Act.seq_def, show (Act.obsStart2 (n := n) env _).2 = .cont from rfl, if_pos rfl, if_pos rfl]
  unfold Act.stage2Main
  rw [if_pos]
  exact hz

/-- C102 fails for every program: if the complete run examined anything, the second run, unless it fails, is
stopped by the time limit at once or reaches a target, examines at least one point again. -/
theorem C102_examines_again {env env2 : Env n} {o : Opt n} {loaded : Option (Except CkErr (Ckpt n))}
    {cfg : CkptConfig} {set set2 : List (Sol n)} (hb : Built o) (hf : Fresh o loaded) (hp : Polite env)
    (hc : o.ckpt = some cfg) (ha : cfg.autoResume = true) (hv : env.rt.Valid)
    (hok : (run env o loaded).result = .ok set)
    (ht : ¬ TargetMet o (run env o loaded).final.trace)
    (htime : ∀ t k, o.maxTime = some t → F64.gt (env.clock k) t = false) {pre : List (Event n)}
    {it : Nat} {c : Ckpt n} (hl : (run env o loaded).final.trace = pre ++ [.saved it c])
    (hx : 0 < o.params.iterations ∧ c.referenceSet ≠ [])
    (h2 : (run env2 o (some (.ok c))).result = .ok set2)
    (htime2 : ∀ t, o.maxTime = some t → F64.gt (env2.clock 0) t = false) :
    0 < (examined (run env2 o (some (.ok c))).final.trace).length := by
  obtain ⟨k1, k2, k3, -, k5, k6, k7⟩ := last_checkpoint hb hf hp hc hv hok ht htime hl
  have hlen : 0 < c.referenceSet.length := List.length_pos_iff.2 hx.2
  have k5 := k5 (by omega)
  have hr : Resumes o (some (.ok c)) c := ⟨rfl, cfg, hc, ha⟩
  have hne : c.solutionSet ≠ some [] := by
    rw [k1]
    intro h
    cases h
    exact k6 rfl
  rw [Nat.pos_iff_ne_zero]
  intro h0
  have h0' := List.length_eq_zero_iff.1 h0
  have htarget : ¬ TargetMet (o.restore c) (run env2 o (some (.ok c))).final.trace := by
    intro hm
    have hs := (C96_resumed (env := env2) hr hne k2)
    have hnil : procs (run env2 o (some (.ok c))).final.trace = [] := by
      have a := hs.recorded.length_le
      have b := found_le (run env2 o (some (.ok c))).final.trace
      have e := (hs.searched.sublist.trans (passed_sub _)).length_le
      rw [(C102_one_batch_partial (env2 := env2) hb hf hp hc ha hv hok ht htime hl).2.2.1] at b
      rw [h0'] at e
      simp only [List.length_nil] at b e
      exact List.length_eq_zero_iff.1 (by omega)
    obtain ⟨t, set', b, m1, m2, m3, m4, m5⟩ := hm
    rw [hnil] at m2
    have m2 : c.solutionSet = some set' := m2
    have m1 : c.targetObjective = some t := m1
    unfold Opt.targetReached at k2
    rw [show (o.restore c).target = some t from m1, show (o.restore c).solset = some set' from m2] at k2
    dsimp only at k2
    rw [m3] at k2
    dsimp only at k2
    rw [m4] at k2
    cases he : (o.restore c).exclude with
    | false => rw [he] at k2; cases k2
    | true => rw [he, m5 he] at k2; cases k2
  rcases C47_every_mode_partial hr hne k2 h2 htarget with ⟨a, -⟩ | ⟨t, j, a1, a2, a3, a4⟩
  · have := congrArg List.length a
    rw [List.length_map, h0, List.length_drop, List.length_take, k3] at this
    omega
  · have := congrArg List.length a4
    rw [List.length_map, h0, List.length_take, List.length_drop, List.length_take, k3] at this
    have hj : j ≠ 0 := by
      intro hj
      rw [hj, htime2 t a1] at a2
      cases a2
    have hbs : batchSize env2 (o.restore c) c.currentIteration ≠ 0 :=
      batch_of_ok hr h2
    have : 0 < j * batchSize env2 (o.restore c) c.currentIteration :=
      Nat.mul_pos (Nat.pos_of_ne_zero hj) (Nat.pos_of_ne_zero hbs)
    omega

/-- The last checkpoint a run has written. -/
def lastSaved (env : Env n) (o : Opt n) : Option (Ckpt n) := (savedIn (run env o none).final.trace).getLast?

/-- C102 is false: a run of six iterations has ended and returned two solutions; the same program, started
again with the checkpoint that run left behind, examines one of the points again, searches from it and
returns three solutions. -/
theorem C102_violated : ∃ (env : Env 1) (o : Opt 1), env.rt.Valid ∧ Built o ∧ Sequential env o 0 ∧
    resultSize (run env o none) = some 2 ∧
    ∃ c, lastSaved env o = some c ∧ Resumes o (some (.ok c)) c ∧
      (examined (run env o (some (.ok c))).final.trace).length = 1 ∧
      (searched (run env o (some (.ok c))).final.trace).length = 1 ∧
      resultSize (run env o (some (.ok c))) = some 3 := by
  refine ⟨env stay1, stops, rt_valid, Built.checkpointing _ (Built.parallel _ (mk_built flat1_ok)),
    Or.inl rfl, by decide +kernel, (lastSaved (env stay1) stops).get (by decide +kernel), by simp,
    ⟨rfl, _, rfl, rfl⟩, ?_, ?_, ?_⟩ <;> decide +kernel

/-- Whether the last event of a run is a written checkpoint, of which the reference set is not empty. -/
def endsSaved (tr : List (Event n)) : Bool :=
  match tr.getLast? with
  | some (.saved _ c) => !c.referenceSet.isEmpty
  | _ => false

theorem endsSaved_spec {tr : List (Event n)} (h : endsSaved tr = true) :
    ∃ pre it c, tr = pre ++ [.saved it c] ∧ c.referenceSet ≠ [] := by
  unfold endsSaved at h
  split at h
  · rename_i it c hl
    obtain ⟨pre, hp⟩ := List.getLast?_eq_some_iff.1 hl
    refine ⟨pre, it, c, hp, ?_⟩
    intro hc
    rw [hc] at h
    cases h
  · cases h

/-- The hypotheses of the theorems of this file hold for a sequential run and for a parallel one. -/
example : (Built stops ∧ Fresh stops none ∧ Polite (env stay1) ∧
      succeeds (run (env stay1) stops none) = true ∧ stops.maxTime = none ∧ stops.target = none ∧
      ∃ pre it c, (run (env stay1) stops none).final.trace = pre ++ [.saved it c] ∧ c.referenceSet ≠ []) ∧
    (Built wideSaving ∧ Fresh wideSaving none ∧ Polite wideEnv ∧
      succeeds (run wideEnv wideSaving none) = true ∧ wideSaving.maxTime = none ∧ wideSaving.target = none ∧
      ∃ pre it c, (run wideEnv wideSaving none).final.trace = pre ++ [.saved it c] ∧
        c.referenceSet ≠ []) :=
  ⟨⟨Built.checkpointing _ (Built.parallel _ (mk_built flat1_ok)), Or.inl rfl, fun _ _ _ => ⟨rfl, rfl⟩,
      by decide +kernel, by decide +kernel, by decide +kernel,
      endsSaved_spec (by decide +kernel)⟩,
    ⟨Built.checkpointing _ (Built.batch 2 (mk_built wide_ok)), Or.inl rfl, fun _ _ _ => ⟨rfl, rfl⟩,
      by decide +kernel, by decide +kernel, by decide +kernel,
      endsSaved_spec (by decide +kernel)⟩⟩

end GS.Props
