/- C107: what the built-in callbacks print during a run. -/
import Verif.Lemmas.Console
import Verif.Props.Shown
import Verif.Props.Diversify

namespace GS.Props
open GS F64 GS.Witness
variable {n : Nat}

/-- The line about iteration `i` of stage 2 with the numbers that the observer shows. -/
def lineOf (i : Nat) (s : Stage2 n) : Obs.Line n :=
  .stage2 i s.bestObjective s.lastAdded s.solutionSetSize s.threshold s.localCalls s.functionEvaluations

/-- One line for every callback of an iteration of stage 2 (stamped `16 + i`) other than the first one, with the
numbers that the callback is shown. -/
def lines2 (t : List (Event n)) : List (Obs.Line n) := t.flatMap fun e => match e with
  | .callback k seen _ => if 16 < k then (seen.seen2.map (lineOf (k - 16))).toList else []
  | _ => []

theorem lines2_append (a b : List (Event n)) : lines2 (a ++ b) = lines2 a ++ lines2 b := List.flatMap_append

theorem lines2_early (t : List (Event n)) (h : ∀ k seen w, .callback k seen w ∈ t → k < 16) : lines2 t = [] := by
  unfold lines2
  rw [List.flatMap_eq_nil_iff]
  intro e he
  cases e with
  | callback k seen w =>
    have := h k seen w he
    dsimp only
    rw [if_neg (by omega)]
  | _ => rfl

/-- What a callback of stage 2 prints. -/
theorem printed2 {k i : Nat} {seen : Obs n} {w : F64 × Nat} {s : Stage2 n} {id : Nat}
    (h1 : seen.stage1Completed = true ∨ seen.stage1 = none ∨ id = stage2Cb) (h2 : seen.stage2Started = true)
    (h3 : seen.filterChanges = false) (hc : seen.callback = some id) (hid : id = defaultCb ∨ id = stage2Cb)
    (hs : seen.seen2 = some s) (hi : s.iteration = i) (hk : k = 16 + i) :
    Event.printed (.callback k seen w) = if 16 < k then (seen.seen2.map (lineOf (k - 16))).toList else [] := by
  subst hk
  unfold Event.printed
  dsimp only
  rw [hc, hs]
  dsimp only
  have hg : seen.getStage2 = some s := by
    unfold Obs.getStage2
    rw [if_pos h2]
    exact of_seen2 hs
  rw [show 16 + i - 16 = i by omega]
  have hl : Obs.stage2Line s = lineOf i s := by rw [← hi]; rfl
  have hd : seen.defaultStage2.2 = if 16 < 16 + i then ((some s).map (lineOf i)).toList else [] := by
    unfold Obs.defaultStage2
    rw [hg]
    dsimp only
    rw [h3, hi]
    by_cases h0 : 0 < i
    · rw [if_pos h0, if_neg (by decide), if_pos (by omega), hl]; rfl
    · rw [if_neg h0, if_neg (by omega)]
  have hd' : seen.stage2Callback.2 = if 16 < 16 + i then ((some s).map (lineOf i)).toList else [] := by
    unfold Obs.stage2Callback
    rw [hg]
    dsimp only
    rw [hi, hl]
    by_cases h0 : 0 < i
    · rw [if_pos h0, if_pos (by omega)]; rfl
    · rw [if_neg h0, if_neg (by omega)]
  rcases hid with rfl | rfl
  · have h1 : seen.getStage1 = none := by
      unfold Obs.getStage1
      rcases h1 with h | h | h
      · rw [h]; rfl
      · rw [h]; simp
      · cases h
    rw [← hd]
    show seen.defaultCallback.2 = _
    unfold Obs.defaultCallback
    rw [h1]
  · exact hd'

/-- Stage 2 from the state `m1` on, with an observer that has left stage 1 or never was in it. -/
theorem console_main {env : Env n} (ht : Tame env) {s1 : Stage2 n} {m1 : M n} {b : Obs n} {id : Nat}
    {r : Bool} {st : Nat} {ref : List (Pt n)} {objs : Option (List F64)} (hb : m1.opt.obs = some b)
    (hs : m1.seen2 = some s1)
    (h1 : b.stage1Completed = true ∨ b.stage1 = none ∨ id = stage2Cb) (h2 : b.stage2Started = true)
    (h3 : b.filterChanges = false) (hc : b.callback = some id) (hid : id = defaultCb ∨ id = stage2Cb) :
    ∃ t2, (Act.stage2Main env r st ref objs m1).1.trace = m1.trace ++ t2 ∧ console t2 = lines2 t2 := by
  have hI := (itsStep ht).main r st ref objs m1 (fun h => by cases h)
  obtain ⟨_, l, i1, i2⟩ := hI (by rw [hs]; rfl)
  obtain ⟨_, l', j1, j2⟩ := (fixedTrack ht).main r st ref objs m1 (fun h => by cases h) b hb
  obtain ⟨t2, g1⟩ := ((Steps.stage2Main env r st ref objs) m1).trace
  refine ⟨t2, g1, ?_⟩
  rw [g1, cbs_append] at i1 j1
  have i1 := List.append_cancel_left i1
  have j1 := List.append_cancel_left j1
  unfold console lines2
  refine List.flatMap_congr fun e he => ?_
  cases e with
  | callback k seen w =>
    have hm : (k, seen, w) ∈ cbs t2 := List.mem_filterMap.2 ⟨_, he, rfl⟩
    obtain ⟨i, s, e1, e2, e3⟩ := i2 _ (i1 ▸ hm)
    have hf := j2 _ (j1 ▸ hm)
    have f1 : seen.stage1Completed = b.stage1Completed :=
      (congrArg Obs.stage1Completed hf : seen.fixed.stage1Completed = b.fixed.stage1Completed)
    have f2 : seen.stage1 = b.stage1 :=
      (congrArg Obs.stage1 hf : seen.fixed.stage1 = b.fixed.stage1)
    have f3 : seen.stage2Started = b.stage2Started :=
      (congrArg Obs.stage2Started hf : seen.fixed.stage2Started = b.fixed.stage2Started)
    have f4 : seen.filterChanges = b.filterChanges :=
      (congrArg Obs.filterChanges hf : seen.fixed.filterChanges = b.fixed.filterChanges)
    have f5 : seen.callback = b.callback :=
      (congrArg Obs.callback hf : seen.fixed.callback = b.fixed.callback)
    exact printed2 (by rw [f1, f2]; exact h1) (f3.trans h2) (f4.trans h3) (f5.trans hc) hid e2 e3 e1
  | _ => rfl

/-- The observer at the beginning of the run. -/
theorem started_obs_full (env : Env n) (o : Opt n) {b : Obs n} (h : o.obs = some b) :
    ∃ x, (started env o).obs = some { b with
      startTime := x
      stage1 := if b.mode = .stage2Only then b.stage1 else b.stage1.map (·.start (env.time 0)) } := by
  unfold started Opt.mapObs
  dsimp only
  rw [h]
  have ht : ∃ x, b.startTimer (env.time 0) = { b with startTime := x } := by
    unfold Obs.startTimer
    split
    · exact ⟨_, rfl⟩
    · exact ⟨b.startTime, rfl⟩
  obtain ⟨x, hx⟩ := ht
  rw [Option.map_some, hx]
  refine ⟨x, ?_⟩
  congr 1
  unfold Obs.upd1
  by_cases hm : b.mode = .stage2Only
  · rw [if_pos hm, if_neg]
    unfold Obs.should1
    dsimp only
    rw [hm]
    simp
  · rw [if_neg hm]
    cases hs : b.stage1 with
    | none =>
      rw [if_neg]
      · simp
      · unfold Obs.should1
        simp
    | some s =>
      rw [if_pos]
      · unfold Obs.mod1
        simp
      · unfold Obs.should1
        cases hb : b.mode <;> simp_all

/-- A new observer of both stages, or of stage 1, with a built-in callback. -/
structure Fresh1 (b : Obs n) (id : Nat) : Prop where
  mode : b.mode ≠ .stage2Only
  stage1 : b.stage1 = some Stage1.new
  open1 : b.stage1Completed = false
  closed2 : b.stage2Started = false
  callback : b.callback = some id

/-- The first five lines of a run, about stage 1: `r` is the result of the scatter search, `(p, v)` a point of its
reference set with the smallest objective, `x` the solution of the local search, which reported `k` evaluations. -/
def firstLines (r : Scatter.Result n) (p : Pt n) (v : F64) (x : Sol n) (k : Nat) : List (Obs.Line n) :=
  [.initialized 0, .diversified r.initLen, .intensified r.trialLen r.finalLen, .scattered v (some p),
    if (v.isNaN || F64.lt x.objective v) = true then .optimized x.objective (some x.point) (r.initLen + k)
    else .optimized v (some p) (r.initLen + k)]

/-- The result of scatter search that the lines of stage 1 are about. -/
structure About (env : Env n) (o : Opt n) (r : Scatter.Result n) (p : Pt n) (v : F64) (x : Sol n) (k : Nat) :
    Prop where
  scatter : Act.scatter env o = .ok r
  mem : (p, v) ∈ r.ref
  min : ∀ q w, (q, w) ∈ r.ref → F64.tle v w = true
  solved : env.solve o.lsType o.lsConfig r.best = .ok (x, k)
  initial : r.initLen = Nat.max o.params.populationSize
    (starters ⟨o.problem, o.params, [], [], 0, o.par, o.custom⟩).length
  trials : r.initLen < 2 ^ 52 → ∀ j, j = Nat.min (Nat.max (Nat.sqrt r.initLen) 2) r.initLen →
    r.trialLen = 6 * (j * (j - 1) / 2)
  final : r.finalLen = r.ref.length

theorem about_of {env : Env n} {o : Opt n} {r : Scatter.Result n} {p : Pt n} {v : F64} {x : Sol n} {k : Nat}
    (hv : env.rt.Valid) (hr : Act.scatter env o = .ok r)
    (hm : reduceSeq (minOp Prod.snd) r.ref = some (p, v)) (hx : env.solve o.lsType o.lsConfig r.best = .ok (x, k)) :
    About env o r p v x k := by
  obtain ⟨i, h1, h2, _⟩ := reduceSeq_min Prod.snd hm
  have hs : ∃ s : Scatter n, s = ⟨o.problem, o.params, [], [], 0, o.par, o.custom⟩ ∧
      s.run env.rt env.sched = .ok r := by
    unfold Act.scatter at hr
    cases hn : Scatter.new o.problem o.params with
    | error e => rw [hn] at hr; cases hr
    | ok s =>
      rw [hn] at hr
      have he : s = ⟨o.problem, o.params, [], [], 0, true, none⟩ := by
        unfold Scatter.new at hn
        split at hn
        · cases hn
        · cases hn; rfl
      dsimp only at hr
      refine ⟨_, rfl, ?_⟩
      subst he
      cases hc : o.custom with
      | none =>
        rw [hc] at hr
        dsimp only at hr
        split at hr
        · cases hr
        · rename_i h
          cases hr
          exact h
      | some l =>
        rw [hc] at hr
        dsimp only at hr
        split at hr
        · cases hr
        · rename_i h
          cases hr
          exact h
  obtain ⟨s, rfl, hs⟩ := hs
  obtain ⟨s1, s2, s3, trials, j1, j2, j3, j4, j5, j6, j7, j8, _⟩ := Scatter.run_ok hs
  obtain ⟨hlen, hobj⟩ := init_length hv j1
  refine ⟨hr, List.mem_of_getElem? h1, fun q w hq => ?_, hx, ?_, fun hsz j hj => ?_, ?_⟩
  · obtain ⟨j, hj⟩ := List.getElem?_of_mem hq
    exact tle_iff.2 (h2 j (q, w) hj)
  · rw [j6, hlen, starters_length]
  · rw [j6] at hsz hj
    rw [j7, C23_count env.rt s1 s2 trials hsz j2 j hj]
  · have e2 := (Scatter.trialPoints_parts j2).1
    rw [j8, j5, List.length_zip]
    rcases Scatter.update_ok hv j3 with ⟨rfl, _⟩ | ⟨_, _, ha, hb, _⟩
    · rw [e2]
      show _ = min s1.refSet.length s1.refObjs.length
      rw [hobj, Nat.min_self]
    · rw [ha, hb, Nat.min_self]

theorem ref_ne {env : Env n} {o : Opt n} {r : Scatter.Result n} (hv : env.rt.Valid)
    (hpos : 0 < o.params.populationSize) (hr : Act.scatter env o = .ok r) : r.ref ≠ [] := by
  unfold Act.scatter at hr
  cases hn : Scatter.new o.problem o.params with
  | error e => rw [hn] at hr; cases hr
  | ok s =>
    rw [hn] at hr
    have he : s.params = o.params := by
      unfold Scatter.new at hn
      split at hn
      · cases hn
      · cases hn; rfl
    dsimp only at hr
    split at hr
    · cases hr
    · rename_i r' h
      cases hr
      obtain ⟨v, hm, _⟩ := C18_best env.rt hv env.sched _ _ h (by
        cases o.custom with
        | none => exact he ▸ hpos
        | some l => exact he ▸ hpos)
      exact List.ne_nil_of_mem hm

theorem chatty_start {env : Env n} {o : Opt n} {b : Obs n} {id : Nat} (ho : o.obs = some b)
    (hb : Fresh1 b id) (hid : id = defaultCb ∨ id = stage1Cb) :
    ∃ b0 : Obs n, Chatty b0 ∧ b0.mode = b.mode ∧ b0.callback = b.callback ∧ b0.filterChanges = b.filterChanges ∧
      b0.stage1Completed = false ∧ b0.stage2 = b.stage2 ∧
      (started env o).obs = some { b0 with stage1 := some (Stage1.new.start (env.time 0)), stage2 := b.stage2 } := by
  obtain ⟨x, hx⟩ := started_obs_full env o ho
  refine ⟨{ b with startTime := x }, ⟨hb.mode, hb.open1, hb.closed2, ?_⟩, rfl, rfl, rfl, hb.open1,
    rfl, ?_⟩
  · rw [show ({ b with startTime := x } : Obs n).callback = b.callback from rfl, hb.callback]
    rcases hid with rfl | rfl
    · exact Or.inl rfl
    · exact Or.inr rfl
  · rw [hx, if_neg hb.mode, hb.stage1]
    rfl

/-- Everything printed by an observer with a built-in callback that reports stage 1. -/
theorem printed_fresh {env : Env n} {o : Opt n} {loaded : Option (Except CkErr (Ckpt n))} {b : Obs n}
    {set : List (Sol n)} {id : Nat} (hE : BuiltIn env) (hv : env.rt.Valid)
    (hpos : 0 < o.params.populationSize) (ho : o.obs = some b) (hb : Fresh1 b id)
    (hid : id = defaultCb ∨ id = stage1Cb)
    (hfr : Fresh o loaded) (hr : (run env o loaded).result = .ok set) :
    ∃ r p v x k m4 b4, About env o r p v x k ∧ m4.opt.obs = some b4 ∧ b4.stage1Completed = true ∧
      b4.mode = b.mode ∧ b4.callback = some id ∧ b4.filterChanges = b.filterChanges ∧
      b4.stage2.isSome = b.stage2.isSome ∧ (∀ e ∈ m4.trace, e.early = true) ∧
      console m4.trace = firstLines r p v x k ∧
      (((run env o loaded).final = m4) ∨ ∃ ref objs sd,
        (run env o loaded).final = (Act.stage2Main env false 0 ref objs (enter2 env sd m4)).1 ∧
        ∀ e, (Act.stage2Main env false 0 ref objs (enter2 env sd m4)).2 ≠ .fail e) := by
  rw [run_fresh env o loaded hfr] at hr ⊢
  obtain ⟨hset, hnf⟩ := finish_ok hr
  rw [finish_final]
  obtain ⟨b0, hc, e1, e2, e3, e4, e5, e6⟩ := chatty_start (env := env) ho hb hid
  obtain ⟨r, p, v, x, k, m4, s4, g1, g2, g3, ⟨y, gy, g4⟩, g5, ge, g6⟩ := body_fresh_says hE hc
    (s := Stage1.new.start (env.time 0)) (m := ⟨started env o, 0, 0, []⟩) rfl rfl rfl
    ⟨⟨_, by rw [e5], e6⟩, rfl, by simp⟩
    (fun r hr => ref_ne (o := o) hv hpos hr) hnf
  refine ⟨r, p, v, x, k, m4, _, about_of hv g1 g2 g3, g4, rfl, e1, e2.trans hb.callback, e3,
    by rw [← e5]; exact gy, ge, g5, ?_⟩
  rcases g6 with g6 | ⟨ref, objs, sd, g6⟩
  · left; rw [g6]
  · right
    rw [g6] at hnf ⊢
    exact ⟨ref, objs, sd, rfl, hnf⟩

/-- C107 (partial): what the default callback prints during a run that starts with stage 1, succeeds and is watched
by a new observer of both stages without `unique_updates`: five lines about stage 1, then one line for every callback of stage 2
other than that of iteration 0, with the numbers that the callback is shown.  The full property is that of
src/observers/mod.rs 599-650; see `C107_start_violated`, `C107_initial_points_violated`, `C107_resumed_violated`,
`C107_at_violated` and `C107_accepted_violated`. -/
theorem C107_printed_partial {env : Env n} {o : Opt n} {loaded : Option (Except CkErr (Ckpt n))} {b : Obs n}
    {s : Stage2 n} {set : List (Sol n)} (hE : BuiltIn env) (ht : Tame env) (hv : env.rt.Valid)
    (hpos : 0 < o.params.populationSize) (hw : Watches2 o b s) (hb : Fresh1 b defaultCb)
    (hu : b.filterChanges = false) (hfr : Fresh o loaded) (hr : (run env o loaded).result = .ok set) :
    ∃ r p v x k, About env o r p v x k ∧
      console (run env o loaded).final.trace = firstLines r p v x k ++ lines2 (run env o loaded).final.trace := by
  obtain ⟨r, p, v, x, k, m4, b4, h1, h2, h3, h4, h5, h6, hy, hl, h7, h8⟩ :=
    printed_fresh hE hv hpos hw.obs hb (Or.inl rfl)
    hfr hr
  refine ⟨r, p, v, x, k, h1, ?_⟩
  have hl : lines2 m4.trace = [] := lines2_early _ fun k seen w hk => of_decide_eq_true (hl _ hk)
  rcases h8 with h8 | ⟨ref, objs, sd, h8, hnf⟩
  · rw [h8, h7, hl, List.append_nil]
  · rw [h8]
    rw [hw.stage2] at hy
    obtain ⟨y, hy⟩ := Option.isSome_iff_exists.1 hy
    obtain ⟨s5, k1, _⟩ := start2_told env { m4 with uc := 0 } y (by
      unfold M.seen2
      dsimp only
      rw [h2]
      exact seen2_of (by rw [h4]; exact hw.mode) hy)
    obtain ⟨b5, k2, k3⟩ := fixed_enter2 env sd m4 b4 h2
    obtain ⟨t2, g1, g2⟩ := console_main ht k2 k1 (id := defaultCb) (r := false) (st := 0) (ref := ref) (objs := objs)
      (Or.inl ((congrArg Obs.stage1Completed k3 : b5.fixed.stage1Completed = _).trans h3))
      (congrArg Obs.stage2Started k3 : b5.fixed.stage2Started = _)
      ((congrArg Obs.filterChanges k3 : b5.fixed.filterChanges = _).trans (h6.trans hu))
      ((congrArg Obs.callback k3 : b5.fixed.callback = _).trans h5) (Or.inl rfl)
    rw [g1, show (enter2 env sd m4).trace = m4.trace from rfl, console_append, lines2_append, g2, h7, hl,
      List.nil_append]

/-- C107: the stage-1 callback prints the same five lines about stage 1 and nothing else. -/
theorem C107_stage1_callback {env : Env n} {o : Opt n} {loaded : Option (Except CkErr (Ckpt n))} {b : Obs n}
    {set : List (Sol n)} (hE : BuiltIn env) (ht : Tame env) (hv : env.rt.Valid)
    (hpos : 0 < o.params.populationSize) (ho : o.obs = some b) (hb : Fresh1 b stage1Cb)
    (hfr : Fresh o loaded) (hr : (run env o loaded).result = .ok set) :
    ∃ r p v x k, About env o r p v x k ∧ console (run env o loaded).final.trace = firstLines r p v x k := by
  obtain ⟨r, p, v, x, k, m4, b4, h1, h2, h3, h4, h5, h6, hy, hl, h7, h8⟩ :=
    printed_fresh hE hv hpos ho hb (Or.inr rfl)
    hfr hr
  refine ⟨r, p, v, x, k, h1, ?_⟩
  rcases h8 with h8 | ⟨ref, objs, sd, h8, hnf⟩
  · rw [h8, h7]
  · rw [h8]
    obtain ⟨b5, k1, k2⟩ := fixed_enter2 env sd m4 b4 h2
    obtain ⟨_, l, j1, j2⟩ := (fixedTrack ht).main false 0 ref objs (enter2 env sd m4) (fun h => by cases h) b5 k1
    rw [console_cbs, j1, List.flatMap_append, ← console_cbs]
    rw [show (enter2 env sd m4).trace = m4.trace from rfl, h7]
    conv => rhs; rw [← List.append_nil (firstLines r p v x k)]
    congr 1
    rw [List.flatMap_eq_nil_iff]
    rintro ⟨k, seen, w⟩ hx
    have hf := (j2 _ hx).trans k2
    have f1 : seen.stage1Completed = b4.stage1Completed := (congrArg Obs.stage1Completed hf : seen.fixed.stage1Completed = _)
    have f2 : seen.callback = b4.callback := (congrArg Obs.callback hf : seen.fixed.callback = _)
    unfold Event.printed
    dsimp only
    rw [f2, h5]
    show seen.stage1Callback.2 = []
    unfold Obs.stage1Callback Obs.getStage1
    rw [f1, h3]
    rfl

/-- C107 (partial): in a run that resumes from a checkpoint, the stage-2 callback, and the default callback of an
observer that does not track stage 1, print one line for every callback of an iteration other than iteration 0. -/
theorem C107_resumed_partial {env : Env n} {o : Opt n} {loaded : Option (Except CkErr (Ckpt n))} {c : Ckpt n}
    {b : Obs n} {s : Stage2 n} {id : Nat} (ht : Tame env) (hw : Watches2 o b s) (hu : b.filterChanges = false)
    (hc : b.callback = some id) (hid : id = stage2Cb ∨ id = defaultCb ∧ b.stage1 = none)
    (hrs : Resumes o loaded c) :
    console (run env o loaded).final.trace = lines2 (run env o loaded).final.trace := by
  rw [run_resumes env o loaded hrs, finish_final]
  obtain ⟨x, e1⟩ := started_obs_full env o hw.obs
  unfold Act.body
  simp only [if_true]
  unfold Act.stage2
  rw [Act.seq_def, show (Act.obsStart2 (n := n) env _).2 = .cont from rfl, if_pos rfl]
  simp only [if_true]
  obtain ⟨s5, k1, _⟩ := start2_told env
    { (⟨(started env o).restore c, 0, 0, []⟩ : M n) with uc := ((started env o).restore c).unchanged } s
    (by
      unfold M.seen2
      show (started env o).obs.bind Obs.seen2 = some s
      rw [e1]
      exact seen2_of hw.mode hw.stage2)
  obtain ⟨b5, k2, k3⟩ := fixed_start2 env
    { (⟨(started env o).restore c, 0, 0, []⟩ : M n) with uc := ((started env o).restore c).unchanged } _ e1
  obtain ⟨t2, g1, g2⟩ := console_main ht k2 k1 (id := id) (r := true)
    (st := c.currentIteration) (ref := ((started env o).restore c).curRef.getD []) (objs := none)
    (by
      rcases hid with h | ⟨h, h'⟩
      · exact Or.inr (Or.inr h)
      · refine Or.inr (Or.inl ?_)
        rw [show b5.stage1 = _ from (congrArg Obs.stage1 k3 : b5.fixed.stage1 = _)]
        show (if _ then b.stage1 else b.stage1.map _) = none
        rw [h']
        simp)
    (congrArg Obs.stage2Started k3 : b5.fixed.stage2Started = _)
    ((congrArg Obs.filterChanges k3 : b5.fixed.filterChanges = _).trans hu)
    ((congrArg Obs.callback k3 : b5.fixed.callback = _).trans hc)
    (by rcases hid with h | ⟨h, _⟩
        · exact Or.inr h
        · exact Or.inl h)
  rw [show (Act.obsStart2 env _).1.trace = [] from rfl, List.nil_append] at g1
  exact (congrArg console g1).trans (g2.trans (congrArg lines2 g1.symm))

/-- C107 fails for every run that resumes from a checkpoint: the default callback of an observer of both stages, as in
the example of its documentation, prints nothing at all, however many iterations there are. -/
theorem C107_resumed_violated {env : Env n} {o : Opt n} {loaded : Option (Except CkErr (Ckpt n))} {c : Ckpt n}
    {b : Obs n} (ht : Tame env) (ho : o.obs = some b) (hb : Fresh1 b defaultCb) (hrs : Resumes o loaded c) :
    console (run env o loaded).final.trace = [] := by
  rw [run_resumes env o loaded hrs, finish_final]
  obtain ⟨x, e1⟩ := started_obs_full env o ho
  unfold Act.body
  simp only [if_true]
  unfold Act.stage2
  rw [Act.seq_def, show (Act.obsStart2 (n := n) env _).2 = .cont from rfl, if_pos rfl]
  simp only [if_true]
  obtain ⟨b5, k2, k3⟩ := fixed_start2 env
    { (⟨(started env o).restore c, 0, 0, []⟩ : M n) with uc := ((started env o).restore c).unchanged } _ e1
  obtain ⟨_, l, j1, j2⟩ := (fixedTrack ht).main true c.currentIteration
    (((started env o).restore c).curRef.getD []) none
    (Act.obsStart2 env { (⟨(started env o).restore c, 0, 0, []⟩ : M n) with
      uc := ((started env o).restore c).unchanged }).1 (fun h => by cases h) b5 k2
  show console (Act.stage2Main env true c.currentIteration _ _ _).1.trace = []
  rw [console_cbs, j1, show (Act.obsStart2 env _).1.trace = [] from rfl]
  show (([] : List (Nat × Obs n × F64 × Nat)) ++ l).flatMap _ = []
  rw [List.nil_append, List.flatMap_eq_nil_iff]
  rintro ⟨k, seen, w⟩ hx
  have hf := (j2 _ hx).trans k3
  have f1 : seen.stage1Completed = false :=
    (congrArg Obs.stage1Completed hf : seen.fixed.stage1Completed = _).trans hb.open1
  have f2 : seen.callback = some defaultCb :=
    (congrArg Obs.callback hf : seen.fixed.callback = _).trans hb.callback
  have f3 : seen.stage1 = some (Stage1.new.start (env.time 0)) := by
    rw [show seen.stage1 = _ from (congrArg Obs.stage1 hf : seen.fixed.stage1 = _)]
    show (if b.mode = .stage2Only then b.stage1 else b.stage1.map _) = _
    rw [if_neg hb.mode, hb.stage1]
    rfl
  unfold Event.printed
  dsimp only
  rw [f2]
  show seen.defaultCallback.2 = []
  unfold Obs.defaultCallback Obs.getStage1
  rw [f1, f3]
  rfl

/-- C107 fails: the start of scatter search is never reported (the stage that the message belongs to is never
entered). -/
theorem C107_start_violated {env : Env n} {o : Opt n} {loaded : Option (Except CkErr (Ckpt n))} {b : Obs n}
    {s : Stage2 n} {set : List (Sol n)} (hE : BuiltIn env) (ht : Tame env) (hv : env.rt.Valid)
    (hpos : 0 < o.params.populationSize) (hw : Watches2 o b s) (hb : Fresh1 b defaultCb)
    (hu : b.filterChanges = false) (hfr : Fresh o loaded) (hr : (run env o loaded).result = .ok set) :
    .starting ∉ console (run env o loaded).final.trace := by
  obtain ⟨r, p, v, x, k, _, h⟩ := C107_printed_partial hE ht hv hpos hw hb hu hfr hr
  rw [h]
  intro hm
  rcases List.mem_append.1 hm with hm | hm
  · unfold firstLines at hm
    split at hm <;> simp at hm
  · unfold lines2 at hm
    obtain ⟨e, _, he⟩ := List.mem_flatMap.1 hm
    cases e with
    | callback k seen w =>
      dsimp only at he
      split at he
      · cases hs : seen.seen2 with
        | none => rw [hs] at he; simp at he
        | some s => rw [hs] at he; simp [lineOf] at he
      · simp at he
    | _ => simp at he

/-- C107 fails: "Initial Points" is reported to be 0 in every run, although there are at least as many as the
population size. -/
theorem C107_initial_points_violated {env : Env n} {o : Opt n} {loaded : Option (Except CkErr (Ckpt n))} {b : Obs n}
    {s : Stage2 n} {set : List (Sol n)} (hE : BuiltIn env) (ht : Tame env) (hv : env.rt.Valid)
    (hpos : 0 < o.params.populationSize) (hw : Watches2 o b s) (hb : Fresh1 b defaultCb)
    (hu : b.filterChanges = false) (hfr : Fresh o loaded) (hr : (run env o loaded).result = .ok set) :
    (console (run env o loaded).final.trace).head? = some (.initialized 0) ∧
      ∃ k, (console (run env o loaded).final.trace)[1]? = some (.diversified k) ∧ o.params.populationSize ≤ k := by
  obtain ⟨r, p, v, x, k, ha, h⟩ := C107_printed_partial hE ht hv hpos hw hb hu hfr hr
  rw [h]
  exact ⟨rfl, r.initLen, rfl, by rw [ha.initial]; exact Nat.le_max_left _ _⟩

/-- C107: a built-in callback of stage 1 has something to say about every part of stage 1 but three: before it starts,
while the local search runs, and at its end. -/
theorem C107_silent_iff (s : Stage1 n) : Obs.stage1Line s = none ↔
    s.substage = .notStarted ∨ s.substage = .localOptimization ∨ s.substage = .stage1Complete := by
  unfold Obs.stage1Line
  cases s.substage <;> simp

/-- C107: when both stages are visible, the default callback prints the message of stage 1 and then the line of stage 2;
while stage 1 has no message, it prints nothing. -/
theorem C107_both (b : Obs n) {s1 : Stage1 n} {s2 : Stage2 n} (h1 : b.getStage1 = some s1) (h2 : b.getStage2 = some s2)
    (hi : 0 < s2.iteration) (hu : b.filterChanges = false) :
    b.defaultCallback = (b, match Obs.stage1Line s1 with
      | none => []
      | some l => [l, .stage2 s2.iteration s2.bestObjective s2.lastAdded s2.solutionSetSize s2.threshold s2.localCalls
          s2.functionEvaluations]) := by
  have hd : b.defaultStage2 = (b, [Obs.stage2Line s2]) := by
    unfold Obs.defaultStage2
    rw [h2]
    dsimp only
    rw [if_pos hi, hu]
    rfl
  unfold Obs.defaultCallback
  rw [h1]
  dsimp only
  cases Obs.stage1Line s1 with
  | none => rfl
  | some l => rw [hd]; rfl

/-! ### Examples -/

/-- Built-in callbacks do what they do. -/
def talking (solve : SolverType → SolverConfig → Pt 1 → Except LErr (Sol 1 × Nat)) : Env 1 :=
  { env solve with cb := fun id _ b => (b.builtin id).1 }

theorem talking_builtIn (solve : SolverType → SolverConfig → Pt 1 → Except LErr (Sol 1 × Nat)) :
    BuiltIn (talking solve) := fun _ _ _ _ => rfl

theorem defaultStage2_prev (b : Obs n) : ∃ p, b.defaultStage2.1 = { b with prev := p } := by
  unfold Obs.defaultStage2
  (repeat' split) <;> first | exact ⟨b.prev, rfl⟩ | exact ⟨_, rfl⟩

theorem builtin_prev (id : Nat) (b : Obs n) : ∃ p, (b.builtin id).1 = { b with prev := p } := by
  unfold Obs.builtin
  split
  · unfold Obs.defaultCallback
    split
    · split
      · exact ⟨b.prev, rfl⟩
      · exact defaultStage2_prev b
    · exact defaultStage2_prev b
  · split
    · unfold Obs.stage1Callback
      split <;> exact ⟨b.prev, rfl⟩
    · split
      · unfold Obs.stage2Callback
        split <;> exact ⟨b.prev, rfl⟩
      · exact ⟨b.prev, rfl⟩

theorem talking_tame (solve : SolverType → SolverConfig → Pt 1 → Except LErr (Sol 1 × Nat)) :
    Tame (talking solve) := fun id _ b => builtin_prev id b

/-- A local search that stays where it is; the objective is 1 below 2 and a little more elsewhere. -/
def near (_ : SolverType) (_ : SolverConfig) (p : Pt 1) : Except LErr (Sol 1 × Nat) :=
  .ok (⟨p, if F64.lt (p 0) (num 2) = true then F64.one else F64.one.add (F64.lit 1 (10 ^ 9))⟩, 5)

/-- The interruptible run, watched. -/
def heard : Opt 1 := stops.addObserver watcher

theorem heard_fresh1 : Fresh1 watcher defaultCb := ⟨by decide, rfl, rfl, rfl, rfl⟩

/-- Non-vacuity of `C107_printed_partial`: its hypotheses hold, and there are lines about both stages. -/
example : BuiltIn (talking near) ∧ Tame (talking near) ∧ (talking near).rt.Valid ∧
    0 < heard.params.populationSize ∧ Watches2 heard watcher Stage2.new ∧ Fresh1 watcher defaultCb ∧
    watcher.filterChanges = false ∧ Fresh heard none ∧ succeeds (run (talking near) heard none) = true ∧
    (console (run (talking near) heard none).final.trace).length = 7 ∧
    (lines2 (run (talking near) heard none).final.trace).length = 2 :=
  ⟨talking_builtIn _, talking_tame _, rt_valid, by decide +kernel, ⟨rfl, by decide, rfl, rfl⟩, heard_fresh1, rfl,
    Or.inl rfl, by decide +kernel, by decide +kernel, by decide +kernel⟩

/-- The same with the stage-1 callback. -/
example : Fresh1 (watcher.withCallback stage1Cb) stage1Cb ∧
    succeeds (run (talking near) (stops.addObserver (watcher.withCallback stage1Cb)) none) = true ∧
    (console (run (talking near) (stops.addObserver (watcher.withCallback stage1Cb)) none).final.trace).length = 5 :=
  ⟨⟨by decide, rfl, rfl, rfl, rfl⟩, by decide +kernel, by decide +kernel⟩

/-- Non-vacuity for resumed runs: the same checkpoints are continued with lines if the stage-2 callback watches, and
without any if the default callback of an observer of both stages does, though it is called. -/
example : savedIn (run (talking near) stops none).final.trace ≠ [] ∧
    ∀ c ∈ savedIn (run (talking near) stops none).final.trace, Resumes heard (some (.ok c)) c ∧
      (cbs (run (talking near) heard (some (.ok c))).final.trace).length ≠ 0 ∧
      console (run (talking near) heard (some (.ok c))).final.trace = [] ∧
      console (run (talking near) (stops.addObserver (watcher.withCallback stage2Cb)) (some (.ok c))).final.trace ≠ [] :=
  ⟨by decide +kernel, fun c hc => ⟨⟨rfl, _, rfl, rfl⟩, by revert c; decide +kernel⟩⟩

/-- C107 fails: the line about iteration 1 says that the best objective is 1 at the point 4, but the solution at 4 has
another objective, and the best solution is at another point. -/
theorem C107_at_violated : Built heard ∧ BuiltIn (talking near) ∧ Watches2 heard watcher Stage2.new ∧
    (console (run (talking near) heard none).final.trace)[5]? =
      some (.stage2 1 F64.one (some (pt (num 4))) 2 F64.one 1 5) ∧
    ∃ x y, (run (talking near) heard none).final.opt.solset = some [x, y] ∧
      x.objective = F64.one ∧ x.point ≠ pt (num 4) ∧ y.point = pt (num 4) ∧ y.objective ≠ F64.one := by
  refine ⟨Built.observer _ (Built.checkpointing _ (Built.parallel _ (mk_built flat1_ok))), talking_builtIn _,
    ⟨rfl, by decide, rfl, rfl⟩, by decide +kernel, ?_⟩
  have h : (match (run (talking near) heard none).final.opt.solset with
    | some [x, y] => decide (x.objective = F64.one ∧ x.point ≠ pt (num 4) ∧ y.point = pt (num 4) ∧
        y.objective ≠ F64.one)
    | _ => false) = true := by decide +kernel
  split at h
  · rename_i x y hxy
    exact ⟨x, y, hxy, of_decide_eq_true h⟩
  · cases h

/-- C107 fails: after intensification the number of accepted trial points is reported as 6, the size of the reference
set, but with this constant objective no trial point improves on the worst reference point, and none is accepted. -/
theorem C107_accepted_violated : Built heard ∧ BuiltIn (talking near) ∧
    (console (run (talking near) heard none).final.trace)[2]? = some (.intensified 6 6) ∧
    ∀ x v w, heard.problem.objective x = .ok v →
      (∃ r q, Act.scatter (talking near) heard = .ok r ∧ (q, w) ∈ r.ref) → F64.lt v w = false := by
  refine ⟨Built.observer _ (Built.checkpointing _ (Built.parallel _ (mk_built flat1_ok))), talking_builtIn _,
    by decide +kernel, fun x v w hv ⟨r, q, hr, hq⟩ => ?_⟩
  have hp : heard.problem = flat1 := by
    unfold heard stops Opt.addObserver Opt.withCheckpointing Opt.setParallel
    dsimp only
    exact (new_fields (mk_new flat1_ok)).1
  rw [hp] at hv
  have h1 : v = F64.one := (Except.ok.inj hv).symm
  have h : (match Act.scatter (talking near) heard with
    | .ok r => r.ref.all fun z => z.2 == F64.one
    | .error _ => false) = true := by decide +kernel
  rw [hr] at h
  have := List.all_eq_true.1 h _ hq
  rw [beq_iff_eq] at this
  rw [h1, show w = F64.one from this]
  decide

/-- Both stages visible: stage 1 in its scatter search, stage 2 started by hand. -/
example : ∃ (b : Obs 1) (s1 : Stage1 1) (s2 : Stage2 1), b.getStage1 = some s1 ∧ b.getStage2 = some s2 ∧
    0 < s2.iteration ∧ b.filterChanges = false ∧ (Obs.stage1Line s1).isSome = true :=
  ⟨(((Obs.new.withStage1.withStage2.mod1 fun s => s.enterSubstage .scatterSearchRunning 0).mod2 fun s =>
    s.setIteration 1)).markStage2Started, _, _, rfl, rfl, Nat.one_pos, rfl, rfl⟩

end GS.Props
