/- Invariant of all runs, sequential or parallel, for every batch size: what happens at each event, read
off the events before it. -/
import Verif.Lemmas.Early
import Verif.Lemmas.SeqRun

namespace GS
open Relation F64
variable {n : Nat}

/-- Threshold after an event, together with the merit values of the points that passed the filters and
whose solutions are still to be recorded.  Recording a solution sets the threshold to the merit value of
its starting point, or, for a first or new best solution, to its objective. -/
def bookStep (b : F64 × List F64) : Event n → F64 × List F64
  | .search none _ (.ok s) => (s.objective, b.2)
  | .examine _ _ v true => (b.1, b.2 ++ [v])
  | .processed s .first => (s.objective, b.2.tail)
  | .processed s .newBest => (s.objective, b.2.tail)
  | .processed _ _ => (b.2.headD b.1, b.2.tail)
  | .relaxed _ new => (new, b.2)
  | _ => b

def bookAfter (t0 : F64) (tr : List (Event n)) : F64 × List F64 := tr.foldl bookStep (t0, [])

/-- The merit threshold in force after a trace. -/
def inForce (t0 : F64) (tr : List (Event n)) : F64 := (bookAfter t0 tr).1

/-- Rejections counted before the trace started (until the first relaxation), and the iterations of the
points rejected since the last relaxation. -/
def pendStep (b : Nat × List Nat) : Event n → Nat × List Nat
  | .examine it _ _ false => (b.1, b.2 ++ [it])
  | .relaxed it _ => (0, b.2.filter (it < ·))
  | _ => b

def pendAfter (w0 : Nat) (tr : List (Event n)) : Nat × List Nat := tr.foldl pendStep (w0, [])

/-- Number of points rejected since the last relaxation among the iterations chosen by `f`. -/
def rejections (w0 : Nat) (tr : List (Event n)) (f : Nat → Bool) : Nat :=
  (pendAfter w0 tr).1 + ((pendAfter w0 tr).2.filter f).length

theorem bookAfter_snoc (t0 : F64) (tr : List (Event n)) (e : Event n) :
    bookAfter t0 (tr ++ [e]) = bookStep (bookAfter t0 tr) e := by simp [bookAfter]
theorem pendAfter_snoc (w0 : Nat) (tr : List (Event n)) (e : Event n) :
    pendAfter w0 (tr ++ [e]) = pendStep (pendAfter w0 tr) e := by simp [pendAfter]

theorem bookAfter_neutral {t : List (Event n)} (h : ∀ e ∈ t, e.neutral = true) (t0 : F64)
    (tr : List (Event n)) : bookAfter t0 (tr ++ t) = bookAfter t0 tr := by
  induction t using List.reverseRecOn with
  | nil => rw [List.append_nil]
  | append_singleton t e ih =>
    rw [← List.append_assoc, bookAfter_snoc, ih fun x hx => h x (by simp [hx])]
    have he := h e (by simp)
    cases e <;> first | rfl | simp [Event.neutral] at he

theorem pendAfter_neutral {t : List (Event n)} (h : ∀ e ∈ t, e.neutral = true) (w0 : Nat)
    (tr : List (Event n)) : pendAfter w0 (tr ++ t) = pendAfter w0 tr := by
  induction t using List.reverseRecOn with
  | nil => rw [List.append_nil]
  | append_singleton t e ih =>
    rw [← List.append_assoc, pendAfter_snoc, ih fun x hx => h x (by simp [hx])]
    have he := h e (by simp)
    cases e <;> first | rfl | simp [Event.neutral] at he

/-- The event is what stage 2 should do after the trace `pre`, for a run started with optimizer `o` and
counter `w0`; `bn` gives the batch number of an iteration. -/
def Meet (o : Opt n) (w0 : Nat) (V : Nat → Pt n → F64 → Prop) (bn : Nat → Nat)
    (pre : List (Event n)) : Event n → Prop
  | .examine it p v ok =>
    (ok = true ↔ F64.le v (inForce o.merit.threshold pre) = true ∧
      Far o.dist.params.distanceFactor p (o.dist.solutions ++ procs pre)) ∧
    V it p v ∧ ¬ TargetMet o pre ∧
    (w0 < Nat.max 1 o.params.waitCycle →
      rejections w0 pre (fun j => bn j < bn it) < Nat.max 1 o.params.waitCycle) ∧
    foundSols pre = procs pre ∧
    searched pre = (passed pre).filter (fun x => bn x.1 < bn it)
  | .relaxed it new =>
    new = Opt.relaxed o.params.thresholdFactor (inForce o.merit.threshold pre) ∧
    it ∈ (pendAfter w0 pre).2 ∧
    Nat.max 1 o.params.waitCycle ≤ rejections w0 pre (fun j => j ≤ it) ∧
    (w0 < Nat.max 1 o.params.waitCycle →
      rejections w0 pre (fun j => j ≤ it) = Nat.max 1 o.params.waitCycle)
  | .search (some it) p _ => searched pre ++ [(it, p)] <+: passed pre ∧ ¬ TargetMet o pre
  | .processed s _ => procs pre ++ [s] <+: foundSols pre ∧
      ((examined pre = [] ∧ procs pre = []) ∨ ¬ TargetMet o pre)
  | .saved _ c => c.meritThreshold = inForce o.merit.threshold pre
  | _ => True

/-- Every event is met by the ones before it. -/
def MeetAll (o : Opt n) (w0 : Nat) (V : Nat → Pt n → F64 → Prop) (bn : Nat → Nat)
    (tr : List (Event n)) : Prop :=
  ∀ pre e post, tr = pre ++ e :: post → Meet o w0 V bn pre e

variable {env : Env n} {o : Opt n} {w0 : Nat} {V : Nat → Pt n → F64 → Prop} {bn : Nat → Nat}

theorem MeetAll.snoc {tr : List (Event n)} {e : Event n} (h : MeetAll o w0 V bn tr)
    (he : Meet o w0 V bn tr e) : MeetAll o w0 V bn (tr ++ [e]) := by
  intro pre x post heq
  rcases snoc_split heq with ⟨rfl, rfl⟩ | ⟨post', hp⟩
  · exact he
  · exact h pre x post' hp

theorem Meet.neutral {pre : List (Event n)} {e : Event n} (h : e.neutral = true)
    (hs : ∀ it c, e = .saved it c → c.meritThreshold = inForce o.merit.threshold pre) :
    Meet o w0 V bn pre e := by
  cases e <;> first | trivial | exact hs _ _ rfl | simp [Event.neutral] at h

/-- What holds after any outcome. -/
structure MeetRun (env : Env n) (o : Opt n) (w0 : Nat) (V : Nat → Pt n → F64 → Prop) (bn : Nat → Nat)
    (m : M n) : Prop where
  reach : ∃ u sv, Reach env ⟨o, u, sv, []⟩ m
  meet : MeetAll o w0 V bn m.trace

/-- Invariant: `pv` are the merit values of solutions to be recorded, `ps` the points still to be searched,
`fs` the solutions found and not recorded, `rj` the rejected iterations not counted yet. -/
structure AllInv (env : Env n) (o : Opt n) (w0 : Nat) (V : Nat → Pt n → F64 → Prop) (bn : Nat → Nat)
    (m : M n) (pv : List F64) (ps : List (Nat × Pt n)) (fs : List (Sol n)) (rj : List Nat) : Prop where
  reach : ∃ u sv, Reach env ⟨o, u, sv, []⟩ m
  meet : MeetAll o w0 V bn m.trace
  thr : bookAfter o.merit.threshold m.trace = (m.opt.merit.threshold, pv)
  wait : ∃ D, (pendAfter w0 m.trace).2 = D ++ rj ∧ m.uc = (pendAfter w0 m.trace).1 + D.length ∧
    ∀ d ∈ D, ∀ r ∈ rj, d < r
  sorted : rj.Pairwise (· < ·)
  pend : ∀ x ∈ (pendAfter w0 m.trace).2, x ∈ (examined m.trace).map Prod.fst
  srch : searched m.trace ++ ps = passed m.trace
  fnd : foundSols m.trace = procs m.trace ++ fs
  lim : w0 < Nat.max 1 o.params.waitCycle → m.uc < Nat.max 1 o.params.waitCycle

theorem AllInv.good {m : M n} {pv ps fs rj} (h : AllInv env o w0 V bn m pv ps fs rj) :
    MeetRun env o w0 V bn m := ⟨h.reach, h.meet⟩

theorem MeetRun.hist {m : M n} (h : MeetRun env o w0 V bn m) (hne : o.solset ≠ some []) : HistInv o m := by
  obtain ⟨u, sv, hr⟩ := h.reach
  exact histInv hne hr

theorem AllInv.hist {m : M n} {pv ps fs rj} (h : AllInv env o w0 V bn m pv ps fs rj)
    (hne : o.solset ≠ some []) : HistInv o m := h.good.hist hne

theorem AllInv.inForce {m : M n} {pv ps fs rj} (h : AllInv env o w0 V bn m pv ps fs rj) :
    inForce o.merit.threshold m.trace = m.opt.merit.threshold := by
  unfold GS.inForce; rw [h.thr]

theorem AllInv.quiet {m m' : M n} {pv ps fs rj} (h : AllInv env o w0 V bn m pv ps fs rj)
    (q : Quiet m m') (hr : Reach env m m') : AllInv env o w0 V bn m' pv ps fs rj := by
  obtain ⟨u, sv, h0⟩ := h.reach
  have hf := q.found
  obtain ⟨t, ht, hn⟩ := q.tr
  refine ⟨⟨u, sv, h0.trans hr⟩, ?_, ?_, ?_, h.sorted, ?_, ?_, ?_, ?_⟩
  · rw [ht]
    have hsv : ∀ it c, Event.saved it c ∈ t →
        c.meritThreshold = GS.inForce o.merit.threshold m.trace :=
      fun it c hm => (q.sv t ht it c hm).trans h.inForce.symm
    clear ht q hr hf
    induction t using List.reverseRecOn with
    | nil => simpa using h.meet
    | append_singleton t e ih =>
      rw [← List.append_assoc]
      refine (ih (fun x hx => hn x (by simp [hx])) fun it c hm => hsv it c (by simp [hm])).snoc
        (Meet.neutral (hn e (by simp)) fun it c he => ?_)
      rw [hsv it c (by simp [he])]
      unfold GS.inForce
      rw [bookAfter_neutral fun x hx => hn x (by simp [hx])]
  · rw [q.thr, ht, bookAfter_neutral hn, h.thr]
  · rw [q.uc, ht, pendAfter_neutral hn]; exact h.wait
  · rw [ht, pendAfter_neutral hn, examined_neutral hn]; exact h.pend
  · rw [ht, searched_neutral hn, passed_neutral hn, h.srch]
  · rw [hf, q.procs, h.fnd]
  · rw [q.uc]; exact h.lim

/-- The filters as seen from the trace. -/
theorem AllInv.shouldStart {m : M n} {pv ps fs rj} (h : AllInv env o w0 V bn m pv ps fs rj)
    (hne : o.solset ≠ some []) (p : Pt n) (v : F64) : m.opt.shouldStart p v = true ↔
      F64.le v (GS.inForce o.merit.threshold m.trace) = true ∧
      Far o.dist.params.distanceFactor p (o.dist.solutions ++ procs m.trace) := by
  have hh := h.hist hne
  unfold Opt.shouldStart DistanceFilter.check Far
  rw [h.inForce, hh.dist, hh.cfg.dparams, Bool.and_eq_true, List.all_eq_true]

theorem AllInv.noTarget {m : M n} {pv ps fs rj} (h : AllInv env o w0 V bn m pv ps fs rj)
    (hne : o.solset ≠ some []) (ht : m.opt.targetReached = false) : ¬ TargetMet o m.trace := by
  rw [← targetReached_iff (h.hist hne), ht]; simp

/-- Nothing of batch `b` or a later one has been examined, except that `k` of its points are waiting. -/
structure AtBatch (w0 : Nat) (bn : Nat → Nat) (b : Nat) (m : M n) : Prop where
  srch : searched m.trace = (passed m.trace).filter (fun x => bn x.1 < b)
  rej : rejections w0 m.trace (fun j => bn j < b) = m.uc

/-- A point is examined. -/
theorem AllInv.examine {m : M n} {pv ps rj} (h : AllInv env o w0 V bn m pv ps [] rj)
    (hne : o.solset ≠ some []) (ht : m.opt.targetReached = false) (it : Nat) (p : Pt n) (v : F64)
    (ok : Bool) (hok : m.opt.shouldStart p v = ok) (hV : V it p v)
    (hnew : ∀ x ∈ (examined m.trace).map Prod.fst, x < it) (hb : AtBatch w0 bn (bn it) m) :
    AllInv env o w0 V bn { m with trace := m.trace ++ [.examine it p v ok] }
      (pv ++ if ok then [v] else []) (ps ++ if ok then [(it, p)] else []) []
      (rj ++ if ok then [] else [it]) ∧
    AtBatch w0 bn (bn it) { m with trace := m.trace ++ [.examine it p v ok] } := by
  obtain ⟨u, sv, h0⟩ := h.reach
  have hm : Meet o w0 V bn m.trace (.examine it p v ok) := by
    refine ⟨?_, hV, h.noTarget hne ht, ?_, ?_, hb.srch⟩
    · rw [← h.shouldStart hne, hok]
    · intro hw; rw [hb.rej]; exact h.lim hw
    · rw [h.fnd, List.append_nil]
  have hreach := h0.trans (reach_log env m (.examine it p v ok) rfl trivial)
  obtain ⟨D, d1, d2, d3⟩ := h.wait
  have hbk := h.thr
  cases ok
  · refine ⟨⟨⟨u, sv, hreach⟩, h.meet.snoc hm, ?_, ⟨D, ?_, ?_, ?_⟩, ?_, ?_, ?_, ?_, h.lim⟩, ?_, ?_⟩
    · show bookAfter _ (_ ++ [_]) = _
      rw [bookAfter_snoc, h.thr]; simp [bookStep]
    · show (pendAfter _ (_ ++ [_])).2 = _
      rw [pendAfter_snoc, ← List.append_assoc, ← d1]; rfl
    · show m.uc = (pendAfter _ (_ ++ [_])).1 + _
      rw [pendAfter_snoc, d2]; rfl
    · intro d hd r hr
      simp only [Bool.false_eq_true, if_false, List.mem_append, List.mem_singleton] at hr
      rcases hr with hr | rfl
      · exact d3 d hd r hr
      · exact hnew d (h.pend d (by rw [d1]; simp [hd]))
    · simp only [Bool.false_eq_true, if_false]
      rw [List.pairwise_append]
      refine ⟨h.sorted, List.pairwise_singleton _ _, ?_⟩
      intro a ha b hbm
      rw [List.mem_singleton] at hbm
      subst hbm
      exact hnew a (h.pend a (by rw [d1]; simp [ha]))
    · intro x hx
      have hx' : x ∈ (pendAfter w0 m.trace).2 ++ [it] := by
        have : pendAfter w0 (m.trace ++ [.examine it p v false]) =
          ((pendAfter w0 m.trace).1, (pendAfter w0 m.trace).2 ++ [it]) := pendAfter_snoc _ _ _
        rw [this] at hx; exact hx
      show x ∈ (examined (_ ++ [_])).map _
      rw [examined_append, List.map_append, List.mem_append]
      rw [List.mem_append] at hx'
      rcases hx' with hx' | hx'
      · exact Or.inl (h.pend x hx')
      · right; simpa [examined] using hx'
    · show searched (_ ++ [_]) ++ _ = passed (_ ++ [_])
      rw [searched_append, passed_append, ← h.srch]; simp [searched, passed]
    · show foundSols (_ ++ [_]) = procs (_ ++ [_]) ++ _
      rw [foundSols_append, procs_append, h.fnd]; simp [foundSols, procs]
    · show searched (_ ++ [_]) = (passed (_ ++ [_])).filter _
      rw [searched_append, passed_append, hb.srch]; simp [searched, passed]
    · show rejections _ (_ ++ [_]) _ = m.uc
      rw [← hb.rej]
      unfold rejections
      rw [pendAfter_snoc]
      simp [pendStep, List.filter_append]
  · refine ⟨⟨⟨u, sv, hreach⟩, h.meet.snoc hm, ?_, ⟨D, ?_, ?_, ?_⟩, ?_, ?_, ?_, ?_, h.lim⟩, ?_, ?_⟩
    · show bookAfter _ (_ ++ [_]) = _
      rw [bookAfter_snoc, h.thr]; simp [bookStep]
    · show (pendAfter _ (_ ++ [_])).2 = _
      rw [pendAfter_snoc]; simpa [pendStep] using d1
    · show m.uc = (pendAfter _ (_ ++ [_])).1 + _
      rw [pendAfter_snoc, d2]; rfl
    · simpa using d3
    · simpa using h.sorted
    · intro x hx
      have hx' : x ∈ (pendAfter w0 m.trace).2 := by
        have : pendAfter w0 (m.trace ++ [.examine it p v true]) = pendAfter w0 m.trace :=
          pendAfter_snoc _ _ _
        rw [this] at hx; exact hx
      show x ∈ (examined (_ ++ [_])).map _
      rw [examined_append, List.map_append, List.mem_append]
      exact Or.inl (h.pend x hx')
    · show searched (_ ++ [_]) ++ _ = passed (_ ++ [_])
      rw [searched_append, passed_append, ← h.srch]; simp [searched, passed]
    · show foundSols (_ ++ [_]) = procs (_ ++ [_]) ++ _
      rw [foundSols_append, procs_append, h.fnd]; simp [foundSols, procs]
    · show searched (_ ++ [_]) = (passed (_ ++ [_])).filter _
      rw [searched_append, passed_append, hb.srch]; simp [searched, passed]
    · show rejections _ (_ ++ [_]) _ = m.uc
      rw [← hb.rej]
      unfold rejections
      rw [pendAfter_snoc]
      simp [pendStep]

/-- A rejected point is counted. -/
theorem AllInv.reject {m : M n} {pv ps fs rj} {it : Nat}
    (h : AllInv env o w0 V bn m pv ps fs (it :: rj)) (hne : o.solset ≠ some []) :
    AllInv env o w0 V bn (Act.reject it m).1 pv ps fs rj ∧ (Act.reject it m).2 = .cont ∧
      (Act.reject it m).1.opt.targetReached = m.opt.targetReached ∧
      examined (Act.reject it m).1.trace = examined m.trace := by
  have hh := h.hist hne
  obtain ⟨u, sv, h0⟩ := h.reach
  obtain ⟨D, d1, d2, d3⟩ := h.wait
  have hso := h.sorted
  rw [List.pairwise_cons] at hso
  have hr : Reach env m (Act.reject it m).1 := Steps.reject env it m
  have hwc : m.opt.params.waitCycle = o.params.waitCycle := by rw [hh.cfg.params]
  have hmx : ∀ k, Nat.max 1 k = max 1 k := fun _ => rfl
  have hrej : rejections w0 m.trace (fun j => j ≤ it) = m.uc + 1 := by
    unfold rejections
    rw [d1, d2, List.filter_append, List.length_append, List.filter_cons]
    have e1 : D.filter (fun j => decide (j ≤ it)) = D :=
      List.filter_eq_self.2 fun d hd => decide_eq_true (Nat.le_of_lt (d3 d hd it (by simp)))
    have e2 : rj.filter (fun j => decide (j ≤ it)) = [] :=
      List.filter_eq_nil_iff.2 fun d hd => by
        have := hso.1 d hd
        simp only [decide_eq_true_eq]
        omega
    rw [e1, e2]
    simp
    omega
  by_cases hw : m.opt.params.waitCycle ≤ m.uc + 1
  · have he : Act.reject it m = ({ m with
        opt := { m.opt with merit := (m.opt.merit.update
          (Opt.relaxed m.opt.params.thresholdFactor m.opt.merit.threshold)) }
        uc := 0
        trace := m.trace ++ [.relaxed it (Opt.relaxed m.opt.params.thresholdFactor
          m.opt.merit.threshold)] }, .cont) := by
      unfold Act.reject; rw [if_pos hw]
    rw [he] at hr ⊢
    have hpend : ∀ x, pendAfter w0 (m.trace ++ [.relaxed it x]) = (0, rj) := by
      intro x
      rw [pendAfter_snoc]
      show (0, _) = _
      rw [d1, List.filter_append, List.filter_cons]
      have e1 : D.filter (fun j => decide (it < j)) = [] :=
        List.filter_eq_nil_iff.2 fun d hd => by
          have := d3 d hd it (by simp)
          simp only [decide_eq_true_eq]
          omega
      have e2 : rj.filter (fun j => decide (it < j)) = rj :=
        List.filter_eq_self.2 fun d hd => decide_eq_true (hso.1 d hd)
      rw [e1, e2]
      simp
    refine ⟨⟨⟨u, sv, h0.trans hr⟩, h.meet.snoc ⟨?_, ?_, ?_, ?_⟩, ?_, ⟨[], ?_, ?_, by simp⟩, hso.2,
      ?_, ?_, ?_, ?_⟩, rfl, rfl, ?_⟩
    · rw [h.inForce, ← hh.cfg.params]
    · rw [d1]; simp
    · rw [hrej, hmx]; omega
    · intro hw0
      have := h.lim hw0
      rw [hmx] at this
      rw [hrej, hmx]
      omega
    · show bookAfter _ (_ ++ [_]) = _
      rw [bookAfter_snoc, h.thr]; rfl
    · show (pendAfter _ (_ ++ [_])).2 = _
      rw [hpend]; rfl
    · show 0 = (pendAfter _ (_ ++ [_])).1 + _
      rw [hpend]; rfl
    · intro x hx
      have hx' : x ∈ rj := by
        have := hpend (Opt.relaxed m.opt.params.thresholdFactor m.opt.merit.threshold)
        rw [this] at hx; exact hx
      show x ∈ (examined (_ ++ [_])).map _
      rw [examined_append, List.map_append, List.mem_append]
      exact Or.inl (h.pend x (by rw [d1]; simp [hx']))
    · show searched (_ ++ [_]) ++ _ = passed (_ ++ [_])
      rw [searched_append, passed_append, ← h.srch]; simp [searched, passed]
    · show foundSols (_ ++ [_]) = procs (_ ++ [_]) ++ _
      rw [foundSols_append, procs_append, h.fnd]; simp [foundSols, procs]
    · intro _
      show 0 < _
      rw [hmx]; omega
    · show examined (_ ++ [_]) = _
      rw [examined_append]; simp [examined]
  · have he : Act.reject it m = ({ m with uc := m.uc + 1 }, .cont) := by
      unfold Act.reject; rw [if_neg hw]
    rw [he] at hr ⊢
    refine ⟨⟨⟨u, sv, h0.trans hr⟩, h.meet, h.thr, ⟨D ++ [it], ?_, ?_, ?_⟩, hso.2, h.pend, h.srch,
      h.fnd, ?_⟩, rfl, rfl, rfl⟩
    · rw [d1]; simp
    · show m.uc + 1 = _
      rw [d2]; simp; omega
    · intro d hd r hr
      rw [List.mem_append, List.mem_singleton] at hd
      rcases hd with hd | rfl
      · exact d3 d hd r (by simp [hr])
      · exact hso.1 r hr
    · intro _
      show m.uc + 1 < _
      rw [hmx]
      omega

/-- Solution of a search, if it succeeded. -/
def okSol : Except LErr (Sol n) → List (Sol n)
  | .ok s => [s]
  | .error _ => []

/-- A local search of stage 2 is started. -/
theorem AllInv.search {m : M n} {pv ps fs rj} {it : Nat} {p : Pt n}
    (h : AllInv env o w0 V bn m pv ((it, p) :: ps) fs rj) (hne : o.solset ≠ some [])
    (ht : m.opt.targetReached = false) (r : Except LErr (Sol n))
    (hr : (Event.search (some it) p r).Genuine env m.opt) :
    AllInv env o w0 V bn { m with trace := m.trace ++ [.search (some it) p r] } pv ps
      (fs ++ okSol r) rj := by
  obtain ⟨u, sv, h0⟩ := h.reach
  refine ⟨⟨u, sv, h0.trans (reach_log env m _ rfl hr)⟩, h.meet.snoc ⟨?_, h.noTarget hne ht⟩, ?_, ?_,
    h.sorted, ?_, ?_, ?_, h.lim⟩
  · rw [← h.srch]
    exact ⟨ps, by simp⟩
  · show bookAfter _ (_ ++ [_]) = _
    rw [bookAfter_snoc, h.thr]; rfl
  · show ∃ D, (pendAfter _ (_ ++ [_])).2 = _ ∧ m.uc = (pendAfter _ (_ ++ [_])).1 + _ ∧ _
    rw [pendAfter_snoc]; exact h.wait
  · show ∀ x ∈ (pendAfter _ (_ ++ [_])).2, x ∈ (examined (_ ++ [_])).map _
    rw [pendAfter_snoc, examined_append]
    intro x hx
    rw [List.map_append, List.mem_append]
    exact Or.inl (h.pend x hx)
  · show searched (_ ++ [_]) ++ _ = passed (_ ++ [_])
    rw [searched_append, passed_append, ← h.srch]; simp [searched, passed]
  · show foundSols (_ ++ [_]) = procs (_ ++ [_]) ++ _
    rw [foundSols_append, procs_append, h.fnd]
    cases r <;> simp [foundSols, procs, okSol]

/-- A solution is recorded, after the threshold was set to the merit value of its starting point. -/
theorem AllInv.process {m : M n} {pv ps fs rj} {s : Sol n}
    (h : AllInv env o w0 V bn m pv ps (s :: fs) rj) (v : F64)
    (hv : v = pv.headD m.opt.merit.threshold) (hs : ∃ it p, Event.search it p (.ok s) ∈ m.trace)
    (hl : (examined m.trace = [] ∧ procs m.trace = []) ∨ ¬ TargetMet o m.trace) :
    AllInv env o w0 V bn
      { m with opt := (({ m.opt with merit := m.opt.merit.update v } : Opt n).process s).1
               trace := m.trace ++ [.processed s
                 (({ m.opt with merit := m.opt.merit.update v } : Opt n).process s).2] }
      pv.tail ps fs rj := by
  obtain ⟨u, sv, h0⟩ := h.reach
  have hthr := Opt.process_merit ({ m.opt with merit := m.opt.merit.update v } : Opt n) s
  have h1 : Reach env m { m with opt := { m.opt with merit := m.opt.merit.update v } } :=
    reach_opt env m { m.opt with merit := m.opt.merit.update v } (by constructor <;> rfl) rfl rfl
  have h2 := h1.tail (Prim.proc (env := env)
    { m with opt := { m.opt with merit := m.opt.merit.update v } } s hs)
  have hreach := h0.trans h2
  generalize (({ m.opt with merit := m.opt.merit.update v } : Opt n).process s).2 = w at hthr hreach ⊢
  refine ⟨⟨u, sv, hreach⟩, h.meet.snoc ⟨?_, hl⟩, ?_, ?_, h.sorted, ?_, ?_, ?_, h.lim⟩
  · rw [h.fnd]
    exact ⟨fs, by simp⟩
  · show bookAfter _ (_ ++ [_]) = (Opt.merit _ |>.threshold, _)
    rw [bookAfter_snoc, h.thr, hthr]
    show _ = (thrStep v _, _)
    rw [hv]
    cases w <;> rfl
  · show ∃ D, (pendAfter _ (_ ++ [_])).2 = _ ∧ m.uc = (pendAfter _ (_ ++ [_])).1 + _ ∧ _
    rw [pendAfter_snoc]; exact h.wait
  · show ∀ x ∈ (pendAfter _ (_ ++ [_])).2, x ∈ (examined (_ ++ [_])).map _
    rw [pendAfter_snoc, examined_append]
    intro x hx
    rw [List.map_append, List.mem_append]
    exact Or.inl (h.pend x hx)
  · show searched (_ ++ [_]) ++ _ = passed (_ ++ [_])
    rw [searched_append, passed_append, ← h.srch]; simp [searched, passed]
  · show foundSols (_ ++ [_]) = procs (_ ++ [_]) ++ _
    rw [foundSols_append, procs_append, h.fnd]; simp [foundSols, procs]

end GS
