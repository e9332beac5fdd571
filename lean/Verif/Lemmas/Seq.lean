/- Invariant of runs whose stage 2 is sequential. -/
import Verif.Lemmas.Trace

namespace GS
open Relation F64
variable {n : Nat}

/-- Farther than the distance factor from every solution of the list. -/
def Far (df : F64) (p : Pt n) (l : List (Sol n)) : Prop :=
  ∀ s ∈ l, F64.gt (dist2 p s.point) (df.mul df) = true

/-- The event is what sequential stage 2 should do after the trace `pre`, for a run started with
optimizer `o` and counter `w0`. -/
def Justified (o : Opt n) (w0 : Nat) (V : Nat → Pt n → F64 → Prop) (pre : List (Event n)) :
    Event n → Prop
  | .examine it p v ok =>
    (ok = true ↔ F64.le v (thrAfter o.merit.threshold pre) = true ∧
      Far o.dist.params.distanceFactor p (o.dist.solutions ++ procs pre)) ∧
    V it p v ∧ ¬ TargetMet o pre ∧
    (w0 < Nat.max 1 o.params.waitCycle → waitAfter w0 pre < Nat.max 1 o.params.waitCycle)
  | .relaxed _ new =>
    new = Opt.relaxed o.params.thresholdFactor (thrAfter o.merit.threshold pre) ∧
    Nat.max 1 o.params.waitCycle ≤ waitAfter w0 pre ∧
    (w0 < Nat.max 1 o.params.waitCycle → waitAfter w0 pre = Nat.max 1 o.params.waitCycle) ∧
    ∃ pre' it p v, pre = pre' ++ [.examine it p v false]
  | .search (some it) p _ => ∃ pre' v, pre = pre' ++ [.examine it p v true]
  | .processed s _ => (∃ pre' it p, pre = pre' ++ [.search (some it) p (.ok s)]) ∨
      (examined pre = [] ∧ procs pre = [])
  | .saved _ c => c.meritThreshold = thrAfter o.merit.threshold pre
  | _ => True

/-- Every event is justified by the ones before it. -/
def JustAll (o : Opt n) (w0 : Nat) (V : Nat → Pt n → F64 → Prop) (tr : List (Event n)) : Prop :=
  ∀ pre e post, tr = pre ++ e :: post → Justified o w0 V pre e

theorem snoc_split {α : Type} {l pre post : List α} {e x : α} (h : l ++ [x] = pre ++ e :: post) :
    (pre = l ∧ e = x) ∨ ∃ post', l = pre ++ e :: post' := by
  rcases List.eq_nil_or_concat post with rfl | ⟨post', y, rfl⟩
  · left
    have := List.append_inj' h rfl
    exact ⟨this.1.symm, by simpa using this.2.symm⟩
  · right
    refine ⟨post', ?_⟩
    rw [List.concat_eq_append, ← List.cons_append, ← List.append_assoc] at h
    exact (List.append_inj' h rfl).1

theorem JustAll.snoc {o : Opt n} {w0 : Nat} {V : Nat → Pt n → F64 → Prop} {tr : List (Event n)}
    {e : Event n} (h : JustAll o w0 V tr) (he : Justified o w0 V tr e) :
    JustAll o w0 V (tr ++ [e]) := by
  intro pre x post heq
  rcases snoc_split heq with ⟨rfl, rfl⟩ | ⟨post', hp⟩
  · exact he
  · exact h pre x post' hp

theorem Justified.neutral {o : Opt n} {w0 : Nat} {V : Nat → Pt n → F64 → Prop}
    {pre : List (Event n)} {e : Event n} (h : e.neutral = true)
    (hs : ∀ it c, e = .saved it c → c.meritThreshold = thrAfter o.merit.threshold pre) :
    Justified o w0 V pre e := by
  cases e <;> first | trivial | exact hs _ _ rfl | simp [Event.neutral] at h

/-- Invariant of a sequential run started with optimizer `o`. -/
structure SeqInv (env : Env n) (o : Opt n) (w0 : Nat) (V : Nat → Pt n → F64 → Prop) (m : M n) :
    Prop where
  reach : ∃ u sv, Reach env ⟨o, u, sv, []⟩ m
  thr : m.opt.merit.threshold = thrAfter o.merit.threshold m.trace
  uc : m.uc = waitAfter w0 m.trace
  just : JustAll o w0 V m.trace
  srch : searched m.trace = passed m.trace
  wait : w0 < Nat.max 1 o.params.waitCycle → m.uc < Nat.max 1 o.params.waitCycle

variable {env : Env n} {o : Opt n} {w0 : Nat} {V : Nat → Pt n → F64 → Prop}

theorem SeqInv.hist {m : M n} (h : SeqInv env o w0 V m) (hne : o.solset ≠ some []) : HistInv o m := by
  obtain ⟨u, sv, hr⟩ := h.reach
  exact histInv hne hr

theorem SeqInv.quiet {m m' : M n} (h : SeqInv env o w0 V m) (q : Quiet m m') (hr : Reach env m m') :
    SeqInv env o w0 V m' := by
  obtain ⟨u, sv, h0⟩ := h.reach
  obtain ⟨t, ht, hn⟩ := q.tr
  refine ⟨⟨u, sv, h0.trans hr⟩, ?_, ?_, ?_, ?_, ?_⟩
  · rw [q.thr, h.thr, ht, thrAfter_neutral hn]
  · rw [q.uc, h.uc, ht, waitAfter_neutral hn]
  · rw [ht]
    have hsv : ∀ it c, Event.saved it c ∈ t → c.meritThreshold = thrAfter o.merit.threshold m.trace :=
      fun it c hm => (q.sv t ht it c hm).trans h.thr
    clear ht q hr
    induction t using List.reverseRecOn with
    | nil => simpa using h.just
    | append_singleton t e ih =>
      rw [← List.append_assoc]
      refine (ih (fun x hx => hn x (by simp [hx])) fun it c hm => hsv it c (by simp [hm])).snoc
        (Justified.neutral (hn e (by simp)) fun it c he => ?_)
      rw [hsv it c (by simp [he]), thrAfter_neutral fun x hx => hn x (by simp [hx])]
  · rw [ht, searched_neutral hn, passed_neutral hn, h.srch]
  · rw [q.uc]; exact h.wait

theorem Quiet.target {m m' : M n} (q : Quiet m m') : m'.opt.targetReached = m.opt.targetReached := by
  unfold Opt.targetReached
  rw [q.cfg.target, q.set, q.cfg.exclude, q.cfg.problem]

theorem Quiet.examined {m m' : M n} (q : Quiet m m') : examined m'.trace = examined m.trace := by
  obtain ⟨t, ht, hn⟩ := q.tr
  rw [ht, examined_neutral hn]

theorem Quiet.procs {m m' : M n} (q : Quiet m m') : procs m'.trace = procs m.trace := by
  obtain ⟨t, ht, hn⟩ := q.tr
  rw [ht, procs_neutral hn]

/-- The filters as seen from the trace. -/
theorem SeqInv.shouldStart {m : M n} (h : SeqInv env o w0 V m) (hne : o.solset ≠ some []) (p : Pt n)
    (v : F64) : m.opt.shouldStart p v = true ↔
      F64.le v (thrAfter o.merit.threshold m.trace) = true ∧
      Far o.dist.params.distanceFactor p (o.dist.solutions ++ procs m.trace) := by
  have hh := h.hist hne
  unfold Opt.shouldStart DistanceFilter.check Far
  rw [h.thr, hh.dist, hh.cfg.dparams, Bool.and_eq_true, List.all_eq_true]

/-- A rejected point. -/
theorem SeqInv.reject {m : M n} (h : SeqInv env o w0 V m) (hne : o.solset ≠ some [])
    (ht : m.opt.targetReached = false) (it : Nat) (p : Pt n) (v : F64) (hv : V it p v)
    (hs : m.opt.shouldStart p v = false) :
    let m1 : M n := { m with trace := m.trace ++ [.examine it p v false] }
    SeqInv env o w0 V (Act.reject it m1).1 ∧ (Act.reject it m1).2 = .cont ∧
      (Act.reject it m1).1.opt.targetReached = false ∧
      examined (Act.reject it m1).1.trace = examined m.trace ++ [(it, p)] := by
  intro m1
  have hh := h.hist hne
  obtain ⟨u, sv, h0⟩ := h.reach
  have hr : Reach env m (Act.reject it m1).1 :=
    (reach_log env m (.examine it p v false) rfl trivial).trans (Steps.reject env it m1)
  have hj : Justified o w0 V m.trace (.examine it p v false) := by
    refine ⟨?_, hv, ?_, ?_⟩
    · rw [← h.shouldStart hne, hs]
    · rw [← targetReached_iff hh, ht]; simp
    · rw [← h.uc]; exact h.wait
  have hthr1 : thrAfter o.merit.threshold m1.trace = m.opt.merit.threshold := by
    rw [thrAfter_snoc, ← h.thr]; rfl
  have huc1 : waitAfter w0 m1.trace = m.uc + 1 := by
    rw [waitAfter_snoc, ← h.uc]; rfl
  have hex : examined m1.trace = examined m.trace ++ [(it, p)] := by
    rw [examined_append]; rfl
  have hsr : searched m1.trace = passed m1.trace := by
    rw [searched_append, passed_append, h.srch]; rfl
  have hwc : m1.opt.params.waitCycle = o.params.waitCycle := by
    show m.opt.params.waitCycle = _
    rw [hh.cfg.params]
  have hmx : ∀ k, Nat.max 1 k = max 1 k := fun _ => rfl
  by_cases hw : m1.opt.params.waitCycle ≤ m1.uc + 1
  · have he : Act.reject it m1 = ({ m1 with
        opt := { m1.opt with merit := (m1.opt.merit.update
          (Opt.relaxed m1.opt.params.thresholdFactor m1.opt.merit.threshold)) }
        uc := 0
        trace := m1.trace ++ [.relaxed it (Opt.relaxed m1.opt.params.thresholdFactor
          m1.opt.merit.threshold)] }, .cont) := by
      unfold Act.reject; rw [if_pos hw]
    rw [he] at hr ⊢
    refine ⟨⟨⟨u, sv, h0.trans hr⟩, ?_, ?_, ?_, ?_, ?_⟩, rfl, ht, ?_⟩
    · show _ = thrAfter _ (m1.trace ++ [_])
      rw [thrAfter_snoc]; rfl
    · show 0 = waitAfter _ (m1.trace ++ [_])
      rw [waitAfter_snoc]; rfl
    · refine (h.just.snoc hj).snoc ⟨?_, ?_, ?_, m.trace, it, p, v, rfl⟩
      · show _ = Opt.relaxed _ (thrAfter _ m1.trace)
        rw [hthr1, ← hh.cfg.params]
      · show _ ≤ waitAfter _ m1.trace
        rw [huc1, hmx]
        rw [hwc] at hw
        have : m1.uc = m.uc := rfl
        omega
      · intro hw0
        show waitAfter _ m1.trace = _
        rw [huc1, hmx]
        have h2 := h.wait hw0
        rw [hmx] at h2
        rw [hwc] at hw
        have : m1.uc = m.uc := rfl
        omega
    · show searched (m1.trace ++ [_]) = passed (m1.trace ++ [_])
      rw [searched_append, passed_append, hsr]; rfl
    · intro _
      show 0 < _
      rw [hmx]; omega
    · show examined (m1.trace ++ [_]) = _
      rw [examined_append, hex]
      simp [GS.examined]
  · have he : Act.reject it m1 = ({ m1 with uc := m1.uc + 1 }, .cont) := by
      unfold Act.reject; rw [if_neg hw]
    rw [he] at hr ⊢
    refine ⟨⟨⟨u, sv, h0.trans hr⟩, ?_, ?_, h.just.snoc hj, hsr, ?_⟩, rfl, ht, hex⟩
    · exact hthr1.symm
    · exact huc1.symm
    · intro _
      show m1.uc + 1 < _
      rw [hmx]
      rw [hwc] at hw
      omega

/-- A local search was started and returned (or failed). -/
theorem SeqInv.search {m : M n} (h : SeqInv env o w0 V m) (hne : o.solset ≠ some [])
    (ht : m.opt.targetReached = false) (it : Nat) (p : Pt n) (v : F64) (hv : V it p v)
    (hs : m.opt.shouldStart p v = true) (r : Except LErr (Sol n))
    (hr : r = (env.solve m.opt.lsType m.opt.lsConfig p).map Prod.fst) :
    SeqInv env o w0 V { m with opt := { m.opt with merit := m.opt.merit.update v }
                               trace := m.trace ++ [.examine it p v true] ++ [.search (some it) p r] } := by
  have hh := h.hist hne
  obtain ⟨u, sv, h0⟩ := h.reach
  have hj : Justified o w0 V m.trace (.examine it p v true) := by
    refine ⟨?_, hv, ?_, ?_⟩
    · rw [← h.shouldStart hne, hs]
    · rw [← targetReached_iff hh, ht]; simp
    · rw [← h.uc]; exact h.wait
  refine ⟨⟨u, sv, h0.trans ?_⟩, ?_, ?_, (h.just.snoc hj).snoc ⟨m.trace, v, rfl⟩, ?_,
    h.wait⟩
  · refine (reach_opt env m { m.opt with merit := m.opt.merit.update v } (by constructor <;> rfl) rfl
      rfl).trans ?_
    refine (reach_log env _ (.examine it p v true) rfl trivial).trans ?_
    exact reach_log env _ (.search (some it) p r) rfl (Or.inl hr)
  · show _ = thrAfter _ (_ ++ [_])
    rw [thrAfter_snoc, thrAfter_snoc]; rfl
  · show m.uc = waitAfter _ (_ ++ [_])
    rw [waitAfter_snoc, waitAfter_snoc, ← h.uc]; rfl
  · show searched (_ ++ [_]) = passed (_ ++ [_])
    rw [searched_append, searched_append, passed_append, passed_append, h.srch]
    simp [searched, passed]

/-- A local solution is processed. -/
theorem SeqInv.process {m : M n} (h : SeqInv env o w0 V m) (s : Sol n)
    (hs : ∃ it p, Event.search it p (.ok s) ∈ m.trace)
    (hl : (∃ pre' it p, m.trace = pre' ++ [.search (some it) p (.ok s)]) ∨
      (examined m.trace = [] ∧ procs m.trace = [])) :
    SeqInv env o w0 V { m with opt := (m.opt.process s).1
                               trace := m.trace ++ [.processed s (m.opt.process s).2] } := by
  obtain ⟨u, sv, h0⟩ := h.reach
  refine ⟨⟨u, sv, h0.tail (Prim.proc m s hs)⟩, ?_, ?_, h.just.snoc hl, ?_, h.wait⟩
  · show (m.opt.process s).1.merit.threshold = thrAfter _ (_ ++ [_])
    rw [thrAfter_snoc, Opt.process_merit, h.thr]
  · show m.uc = waitAfter _ (_ ++ [_])
    rw [waitAfter_snoc, ← h.uc]; rfl
  · show searched (_ ++ [_]) = passed (_ ++ [_])
    rw [searched_append, passed_append, h.srch]; rfl

/-- Result of processing one item. -/
structure StepPost (env : Env n) (o : Opt n) (w0 : Nat) (V : Nat → Pt n → F64 → Prop) (m : M n)
    (its : List (Nat × Pt n)) (r : M n × Out) : Prop where
  inv : SeqInv env o w0 V r.1
  cont : r.2 = .cont → r.1.opt.targetReached = false ∧ examined r.1.trace = examined m.trace ++ its
  stop : r.2 = .stop → r.1.opt.targetReached = true
  pref : ∃ k, examined r.1.trace = examined m.trace ++ its.take k
  live : r.2 ≠ .stop → r.1.opt.targetReached = false

theorem seqInv_tail {m m' : M n} {it : Nat} {p : Pt n} (h : SeqInv env o w0 V m')
    (ht : m'.opt.targetReached = false) (hx : examined m'.trace = examined m.trace ++ [(it, p)])
    {a : Act n} (ha : QuietAct a) (hst : Steps env a) :
    StepPost env o w0 V m [(it, p)] (a m') := by
  have hq := ha.quiet m'
  refine ⟨h.quiet hq (hst m'), fun _ => ⟨by rw [hq.target, ht], by rw [hq.examined, hx]⟩,
    fun hc => absurd hc (ha.nostop m'), ⟨1, by rw [hq.examined, hx]; rfl⟩,
    fun _ => by rw [hq.target, ht]⟩

theorem stopPost {m m' : M n} {it : Nat} {p : Pt n} (h : SeqInv env o w0 V m')
    (hx : examined m'.trace = examined m.trace ++ [(it, p)]) :
    StepPost env o w0 V m [(it, p)] (Act.stopIfTarget m') := by
  unfold Act.stopIfTarget
  refine ⟨h, ?_, ?_, ⟨1, hx⟩, ?_⟩
  · intro hc
    dsimp only at hc ⊢
    split at hc
    · cases hc
    · rename_i hf
      exact ⟨by simpa using hf, hx⟩
  · intro hc
    dsimp only at hc ⊢
    split at hc
    · rename_i hf; exact hf
    · cases hc
  · intro hc
    dsimp only at hc ⊢
    split at hc
    · exact absurd rfl hc
    · rename_i hf
      simpa using hf

theorem localSeq_post {m : M n} (h : SeqInv env o w0 V m) (hne : o.solset ≠ some [])
    (ht : m.opt.targetReached = false) (it : Nat) (p : Pt n) (v : F64) (hv : V it p v)
    (hs : m.opt.shouldStart p v = true) :
    StepPost env o w0 V m [(it, p)]
      (Act.localSeq env it p v { m with trace := m.trace ++ [.examine it p v true] }) := by
  unfold Act.localSeq
  rw [Act.seq_def]
  have e1 : Act.setThreshold v ({ m with trace := m.trace ++ [.examine it p v true] } : M n) =
    ({ m with opt := { m.opt with merit := m.opt.merit.update v }
              trace := m.trace ++ [.examine it p v true] }, .cont) := rfl
  rw [e1]
  simp only [if_true]
  unfold Act.search
  dsimp only
  split
  · rename_i e he
    have hi := h.search hne ht it p v hv hs (.error e) (by rw [he]; rfl)
    refine ⟨hi, (fun hc => by cases hc), (fun hc => by cases hc), ⟨1, ?_⟩, fun _ => ht⟩
    show examined (_ ++ [_]) = _
    rw [examined_append, examined_append]
    simp [examined]
  · rename_i s evals he
    have hi := h.search hne ht it p v hv hs (.ok s) (by rw [he]; rfl)
    have hp := hi.process s ⟨some it, p, by simp⟩ (Or.inl ⟨_, it, p, rfl⟩)
    unfold Act.process
    dsimp only
    have hx : examined (m.trace ++ [.examine it p v true] ++ [.search (some it) p (.ok s)] ++
        [.processed s (({ m.opt with merit := m.opt.merit.update v } : Opt n).process s).2]) =
        examined m.trace ++ [(it, p)] := by
      rw [examined_append, examined_append, examined_append]
      simp [examined]
    split
    · rename_i hpan
      exact absurd hpan ((hp.hist hne).genuine s _ (by simp)).1
    · rw [Act.seq_def]
      rw [show (Act.obsLocal (n := n) _ _ _).2 = .cont from rfl, if_pos rfl]
      generalize hg : ({ m with
        opt := (({ m.opt with merit := m.opt.merit.update v } : Opt n).process s).1
        trace := m.trace ++ [.examine it p v true] ++ [.search (some it) p (.ok s)] ++
          [.processed s (({ m.opt with merit := m.opt.merit.update v } : Opt n).process s).2] } :
        M n) = m' at hp
      have hx' : examined m'.trace = examined m.trace ++ [(it, p)] := by rw [← hg]; exact hx
      have hq := (QuietAct.obsLocal (n := n)
        (({ m.opt with merit := m.opt.merit.update v } : Opt n).process s).2.returned
        (if ({ m.opt with merit := m.opt.merit.update v } : Opt n).tracks2 = true then evals else 0))
      have hst := (Steps.obsLocal env
        (({ m.opt with merit := m.opt.merit.update v } : Opt n).process s).2.returned
        (if ({ m.opt with merit := m.opt.merit.update v } : Opt n).tracks2 = true then evals else 0))
      exact stopPost (hp.quiet (hq.quiet m') (hst m')) ((hq.quiet m').examined.trans hx')

/-- Sequencing in front of an action. -/
theorem StepPost.pre {m m1 : M n} {its : List (Nat × Pt n)} {r : M n × Out} (q : Quiet m m1)
    (h : StepPost env o w0 V m1 its r) : StepPost env o w0 V m its r := by
  refine ⟨h.inv, fun hc => ?_, h.stop, ?_, h.live⟩
  · rw [← q.examined]; exact h.cont hc
  · rw [← q.examined]; exact h.pref

theorem StepPost.seqQuiet {m : M n} {its : List (Nat × Pt n)} {a b : Act n} {m1 : M n}
    (h : StepPost env o w0 V m its (a m1)) (hb : QuietAct b) (hst : Steps env b) :
    StepPost env o w0 V m its ((a ;; b) m1) := by
  rw [Act.seq_def]
  split
  · rename_i hc
    obtain ⟨h1, h2⟩ := h.cont hc
    have hq := hb.quiet (a m1).1
    refine ⟨h.inv.quiet hq (hst _), fun _ => ⟨by rw [hq.target, h1], by rw [hq.examined, h2]⟩,
      fun hc => absurd hc (hb.nostop _), ⟨its.length, by rw [hq.examined, h2, List.take_length]⟩,
      fun _ => by rw [hq.target, h1]⟩
  · exact h

theorem StepPost.quietSeq {m : M n} {its : List (Nat × Pt n)} {a b : Act n} (ha : QuietAct a)
    (hst : Steps env a) (h : SeqInv env o w0 V m) (ht : m.opt.targetReached = false)
    (hb : ∀ m1, SeqInv env o w0 V m1 → m1.opt.targetReached = false → Quiet m m1 →
      StepPost env o w0 V m1 its (b m1)) : StepPost env o w0 V m its ((a ;; b) m) := by
  rw [Act.seq_def]
  have hq := ha.quiet m
  have hi := h.quiet hq (hst m)
  have ht' : (a m).1.opt.targetReached = false := by rw [hq.target, ht]
  split
  · exact (hb _ hi ht' hq).pre hq
  · rename_i hc
    exact ⟨hi, fun h => absurd h hc, fun h => absurd h (ha.nostop m),
      ⟨0, by rw [hq.examined]; simp⟩, fun _ => ht'⟩

/-- One iteration of sequential stage 2. -/
theorem stepSeq_post {m : M n} (objs : Option (List F64)) (h : SeqInv env o w0 V m)
    (hne : o.solset ≠ some []) (ht : m.opt.targetReached = false) (it : Nat × Pt n)
    (hV : ∀ v, Act.meritValue o objs it.1 it.2 = .ok v → V it.1 it.2 v) (r : Bool) (st : Nat)
    (hskip : (r && it.1 < st) = false) :
    StepPost env o w0 V m [it] (Act.stepSeq env r st objs it m) := by
  unfold Act.stepSeq
  rw [if_neg (by rw [hskip]; simp)]
  refine StepPost.quietSeq (QuietAct.beginIter env _) (Steps.beginIter env _) h ht
    fun m1 h1 ht1 _ => ?_
  refine StepPost.quietSeq (QuietAct.obsIter _) (Steps.obsIter env _) h1 ht1 fun m2 h2 ht2 _ => ?_
  unfold Act.getMerit
  dsimp only
  have q3 : Quiet m2 (if objs.isNone = true then
      { m2 with trace := m2.trace ++ [.evaluate it.1 it.2] } else m2) := by
    split
    · exact quiet_log m2 _ rfl
    · exact Quiet.refl _
  have r3 : Reach env m2 (if objs.isNone = true then
      { m2 with trace := m2.trace ++ [.evaluate it.1 it.2] } else m2) := by
    split
    · exact reach_log env m2 _ rfl trivial
    · exact ReflTransGen.refl
  have h3 := h2.quiet q3 r3
  have ht3 := q3.target.trans ht2
  have hx3 := q3.examined
  refine StepPost.pre q3 ?_
  have hmv : Act.meritValue m2.opt objs it.1 it.2 = Act.meritValue o objs it.1 it.2 := by
    unfold Act.meritValue
    rw [(h2.hist hne).cfg.problem]
  rw [hmv]
  generalize hm3 : (if objs.isNone = true then
      { m2 with trace := m2.trace ++ [.evaluate it.1 it.2] } else m2) = m3 at h3 ht3 hx3
  split
  · rename_i e he
    exact ⟨h3, (fun hc => by cases hc), (fun hc => by cases hc), ⟨0, by simp⟩, fun _ => ht3⟩
  · rename_i v hv
    have hVv := hV v hv
    have hqa : QuietAct (if objs.isNone = true then Act.obsEvals (n := n) 1 else Act.skip) := by
      split
      · exact QuietAct.obsEvals 1
      · exact QuietAct.skip
    have hsa : Steps env (if objs.isNone = true then Act.obsEvals (n := n) 1 else Act.skip) := by
      split
      · exact Steps.obsEvals env 1
      · exact Steps.skip env
    refine StepPost.quietSeq hqa hsa h3 ht3 fun m4 h4 ht4 _ => ?_
    rw [Act.seq_def]
    rw [show (Act.log (n := n) _ _).2 = .cont from rfl, if_pos rfl]
    have hse : ∀ b, Act.log (.examine it.1 it.2 v b) m4 =
      ({ m4 with trace := m4.trace ++ [.examine it.1 it.2 v b] }, .cont) := fun _ => rfl
    rw [hse]
    dsimp only
    by_cases hs : m4.opt.shouldStart it.2 v = true
    · rw [hs]
      simp only [if_true]
      exact StepPost.seqQuiet (localSeq_post h4 hne ht4 it.1 it.2 v hVv hs)
        ((QuietAct.callback env _).seq (QuietAct.save env))
        ((Steps.callback env _).seq (Steps.save env))
    · have hs' : m4.opt.shouldStart it.2 v = false := by simpa using hs
      rw [hs']
      simp only [Bool.false_eq_true, if_false]
      obtain ⟨a, b, c, d⟩ := h4.reject hne ht4 it.1 it.2 v hVv hs'
      rw [Act.seq_def, b, if_pos rfl]
      exact seqInv_tail a c d ((QuietAct.callback env _).seq (QuietAct.save env))
        ((Steps.callback env _).seq (Steps.save env))

/-- A sequential batch. -/
theorem batchSeq_post {m : M n} (objs : Option (List F64)) (h : SeqInv env o w0 V m)
    (hne : o.solset ≠ some []) (ht : m.opt.targetReached = false) (its : List (Nat × Pt n))
    (r : Bool) (st : Nat)
    (hV : ∀ it ∈ its, ∀ v, Act.meritValue o objs it.1 it.2 = .ok v → V it.1 it.2 v)
    (hskip : ∀ it ∈ its, (r && it.1 < st) = false) :
    StepPost env o w0 V m its (Act.batchSeq env r st objs its m) := by
  unfold Act.batchSeq
  induction its generalizing m with
  | nil => exact ⟨h, fun _ => ⟨ht, by simp; rfl⟩, (fun hc => by cases hc), ⟨0, by simp; rfl⟩, fun _ => ht⟩
  | cons it its ih =>
    rw [List.map_cons, Act.all, Act.seq_def]
    have h1 := stepSeq_post objs h hne ht it (hV it (by simp)) r st (hskip it (by simp))
    split
    · rename_i hc
      obtain ⟨a, b⟩ := h1.cont hc
      have h2 := ih h1.inv a (fun x hx => hV x (by simp [hx])) (fun x hx => hskip x (by simp [hx]))
      refine ⟨h2.inv, fun hc => ?_, h2.stop, ?_, h2.live⟩
      · obtain ⟨c, d⟩ := h2.cont hc
        exact ⟨c, by rw [d, b]; simp⟩
      · obtain ⟨k, hk⟩ := h2.pref
        exact ⟨k + 1, by rw [hk, b]; simp⟩
    · rename_i hc
      refine ⟨h1.inv, fun hcc => absurd hcc hc, h1.stop, ?_, h1.live⟩
      obtain ⟨k, hk⟩ := h1.pref
      rcases Nat.eq_zero_or_pos k with rfl | hpos
      · exact ⟨0, by rw [hk]; simp⟩
      · exact ⟨1, by rw [hk, List.take_of_length_le (by simp only [List.length_singleton]; omega)]; simp⟩

/-- The `j`-th test from the `k`-th on is the first to find the time limit exceeded. -/
def FirstLate (env : Env n) (o : Opt n) (k j : Nat) : Prop :=
  Act.timedOut env o (k + j) = true ∧ ∀ i, i < j → Act.timedOut env o (k + i) = false

/-- Result of the stage-2 loop on sequential batches; `k` time tests were made before. -/
structure LoopPost (env : Env n) (o : Opt n) (w0 : Nat) (V : Nat → Pt n → F64 → Prop) (k : Nat) (m : M n)
    (its : List (Nat × Pt n)) (r : M n × Out) : Prop where
  inv : SeqInv env o w0 V r.1
  nostop : r.2 ≠ .stop
  cont : r.2 = .cont → r.1.opt.targetReached = true ∨
    (∃ j, FirstLate env o k j ∧ examined r.1.trace = examined m.trace ++ its.take j) ∨
    (examined r.1.trace = examined m.trace ++ its ∧ ∀ i, i < its.length → Act.timedOut env o (k + i) = false)
  pref : ∃ k, examined r.1.trace = examined m.trace ++ its.take k
  fail : ∀ e, r.2 = .fail e → r.1.opt.targetReached = false ∨ ∃ c, e = .checkpoint c

theorem loop_post {m : M n} (objs : Option (List F64)) (h : SeqInv env o w0 V m)
    (hne : o.solset ≠ some []) (ht : m.opt.targetReached = false) (bs : List (List (Nat × Pt n)))
    (r : Bool) (st eff k : Nat) (heff : ¬ 1 < eff)
    (hV : ∀ it ∈ bs.flatten, ∀ v, Act.meritValue o objs it.1 it.2 = .ok v → V it.1 it.2 v)
    (hskip : ∀ it ∈ bs.flatten, (r && it.1 < st) = false) (hone : ∀ b ∈ bs, b.length = 1) :
    LoopPost env o w0 V k m bs.flatten (Act.loop env r st objs eff k bs m) := by
  induction bs generalizing m k with
  | nil => exact ⟨h, (fun hc => by cases hc), fun _ => Or.inr (Or.inr ⟨by simp; rfl, by simp⟩), ⟨0, by simp; rfl⟩,
      fun _ _ => Or.inl ht⟩
  | cons b bs ih =>
    unfold Act.loop
    have hto : Act.timedOut env m.opt k = Act.timedOut env o k := by
      unfold Act.timedOut; rw [(h.hist hne).cfg.maxTime]
    rw [hto]
    split
    · rename_i htt
      exact ⟨h, (fun hc => by cases hc), fun _ => Or.inr (Or.inl ⟨0, ⟨htt, fun i hi => by omega⟩, by simp⟩), ⟨0, by simp⟩,
        fun _ _ => Or.inl ht⟩
    · rename_i hnt
      have hb : Act.procBatch env r st objs eff b m = Act.batchSeq env r st objs b m := by
        unfold Act.procBatch; rw [if_neg heff]
      rw [hb]
      have h1 := batchSeq_post objs h hne ht b r st
        (fun it hit => hV it (by simp [hit])) (fun it hit => hskip it (by simp [hit]))
      obtain ⟨j, hj⟩ := h1.pref
      have hpre : ∀ j, ∃ j', b.take j = (b ++ bs.flatten).take j' := by
        intro j
        refine ⟨min j b.length, ?_⟩
        rw [List.take_append_of_le_length (by omega)]
        rcases Nat.le_total j b.length with hl | hl
        · rw [Nat.min_eq_left hl]
        · rw [Nat.min_eq_right hl, List.take_length, List.take_of_length_le hl]
      generalize hres : Act.batchSeq env r st objs b m = res at h1 hj
      obtain ⟨m', out⟩ := res
      cases out with
      | fail e =>
        obtain ⟨j', hj'⟩ := hpre j
        exact ⟨h1.inv, (fun hc => by cases hc), (fun hc => by cases hc),
          ⟨j', by rw [hj, hj', List.flatten_cons]⟩, fun _ _ => Or.inl (h1.live (by simp))⟩
      | stop =>
        have := h1.stop rfl
        dsimp only at this ⊢
        rw [if_pos this]
        obtain ⟨j', hj'⟩ := hpre j
        exact ⟨h1.inv, (fun hc => by cases hc), fun _ => Or.inl this,
          ⟨j', by rw [hj, hj', List.flatten_cons]⟩, (fun _ hc => by cases hc)⟩
      | cont =>
        obtain ⟨a, c⟩ := h1.cont rfl
        dsimp only at a c ⊢
        rw [if_neg (by rw [a]; simp)]
        have h2 := ih (k := k + 1) h1.inv a (fun it hit => hV it (by simp [hit]))
          (fun it hit => hskip it (by simp [hit])) (fun x hx => hone x (by simp [hx]))
        refine ⟨h2.inv, h2.nostop, fun hc => ?_, ?_, h2.fail⟩
        · rcases h2.cont hc with h' | h' | h'
          · exact Or.inl h'
          · obtain ⟨j, ⟨hl, hb⟩, hj⟩ := h'
            refine Or.inr (Or.inl ⟨j + 1, ⟨?_, fun i hi => ?_⟩, ?_⟩)
            · rw [show k + (j + 1) = k + 1 + j by omega]; exact hl
            · rcases Nat.eq_zero_or_pos i with rfl | hp
              · simpa using hnt
              · rw [show k + i = k + 1 + (i - 1) by omega]
                exact hb _ (by omega)
            · have hb1 := hone b (by simp)
              rw [hj, c, List.flatten_cons, show j + 1 = b.length + j by omega,
                List.take_length_add_append, List.append_assoc]
          · refine Or.inr (Or.inr ⟨by rw [h'.1, c]; simp, fun i hi => ?_⟩)
            have hb1 := hone b (by simp)
            rw [List.flatten_cons, List.length_append, hb1] at hi
            rcases Nat.eq_zero_or_pos i with rfl | hp
            · simpa using hnt
            · rw [show k + i = k + 1 + (i - 1) by omega]
              exact h'.2 _ (by omega)
        · obtain ⟨j', hj'⟩ := h2.pref
          refine ⟨b.length + j', ?_⟩
          rw [hj', c, List.flatten_cons, List.take_length_add_append, List.append_assoc]

end GS
