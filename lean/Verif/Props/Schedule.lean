/- C24-C25: dependence of stage 1 on the thread schedule and on the parallel flag. -/
import Verif.Props.Diversify

namespace GS.Props
open GS F64
variable {n : Nat}

/-! ### C24 -/

theorem minDistance_sched (par : Bool) (sp sp' : Split) (c : Pt n) (ref : List (Pt n)) :
    Scatter.minDistance par sp c ref = Scatter.minDistance par sp' c ref := by
  unfold Scatter.minDistance
  cases par with
  | true => exact Scatter.minDistPar_split sp sp' c ref
  | false => rfl

theorem argmax_any (par par' : Bool) (sp sp' : Split) (ds : List F64) :
    Scatter.argmax par sp ds = Scatter.argmax par' sp' ds := by
  have key : ∀ par sp, Scatter.argmax par sp ds =
      (reduceSeq (maxOp Prod.fst) ds.zipIdx).map Prod.snd := by
    intro par sp
    unfold Scatter.argmax
    cases par with
    | true => simp only [if_true]; rw [split_reduce_eq (maxOp_assoc Prod.fst)]
    | false => simp
  rw [key, key]

theorem divLoop_any (par par' : Bool) (sched sched' : Sched) (fuel round : Nat)
    (ref cand : List (Pt n)) (ds : List F64) :
    Scatter.divLoop par sched fuel round ref cand ds =
      Scatter.divLoop par' sched' fuel round ref cand ds := by
  induction fuel generalizing round ref cand ds with
  | zero => rfl
  | succ fuel ih =>
    unfold Scatter.divLoop
    rw [argmax_any par par' (sched.maxBy round) (sched'.maxBy round)]
    split
    · rfl
    · split
      · rfl
      · exact ih _ _ _ _

theorem diversify_sched (rt : Rt n) (sched sched' : Sched) (s : Scatter n) (ref : List (Pt n)) :
    s.diversify rt sched ref = s.diversify rt sched' ref := by
  unfold Scatter.diversify
  split
  · rfl
  · rename_i s1 cand hc
    have e : (cand.zipIdx.map fun x : Pt n × Nat =>
        Scatter.minDistance s.parallel (sched.minDist x.2) x.1 ref) =
        cand.zipIdx.map fun x => Scatter.minDistance s.parallel (sched'.minDist x.2) x.1 ref :=
      List.map_congr_left fun x _ => minDistance_sched _ _ _ _ _
    dsimp only
    rw [e, divLoop_any s.parallel s.parallel sched sched']

/-- Two scatter searches end alike: with the same result, or both with the failure of an evaluation
(which of several failures is reported may differ), or with the same other error. -/
def endAlike {α : Type} : Except ScatterErr α → Except ScatterErr α → Prop
  | .ok a, .ok b => a = b
  | .error (.evaluation _), .error (.evaluation _) => True
  | .error e, .error e' => e = e'
  | _, _ => False

theorem endAlike_refl {α : Type} (r : Except ScatterErr α) : endAlike r r := by
  cases r with
  | ok a => exact rfl
  | error e => cases e <;> trivial

theorem endAlike_ok {α : Type} {r r' : Except ScatterErr α} (h : endAlike r r') (a : α) :
    r = .ok a ↔ r' = .ok a := by
  cases r with
  | ok x =>
    cases r' with
    | ok y =>
      have : x = y := h
      rw [this]
    | error e => exact False.elim h
  | error e =>
    cases r' with
    | ok y => exact False.elim (by cases e <;> exact h)
    | error e' => exact ⟨(fun h => by cases h), (fun h => by cases h)⟩

theorem evalAll_fails {p : Problem n} {l : List (Pt n)} {x : Pt n} {y : EvalErr} (hx : x ∈ l)
    (hy : p.objective x = .error y) : ∃ e, Scatter.evalAll p l = .error (.evaluation e) := by
  cases h : Scatter.evalAll p l with
  | ok vs =>
    have hm : p.objective x ∈ vs.map Except.ok := by
      rw [← Scatter.evalAll_ok h]; exact List.mem_map.2 ⟨x, hx, rfl⟩
    rw [hy] at hm
    simp at hm
  | error e =>
    clear hx hy
    induction l generalizing e with
    | nil => cases h
    | cons a l ih =>
      unfold Scatter.evalAll at h
      split at h
      · cases h; exact ⟨_, rfl⟩
      · split at h
        · rename_i e' he'
          cases h
          exact ih _ he'
        · cases h

theorem evalInit_alike (par par' : Bool) (order order' : List Nat) (p : Problem n) (l : List (Pt n)) :
    endAlike (Scatter.evalInit par order p l) (Scatter.evalInit par' order' p l) := by
  rcases Scatter.evalInit_cases par order p l with h | ⟨_, x, hx, y, hy, h⟩ <;>
    rcases Scatter.evalInit_cases par' order' p l with h' | ⟨_, x', hx', y', hy', h'⟩ <;> rw [h, h']
  · exact endAlike_refl _
  · obtain ⟨e, he⟩ := evalAll_fails hx' hy'
    rw [he]; trivial
  · obtain ⟨e, he⟩ := evalAll_fails hx hy
    rw [he]; trivial
  · trivial

theorem init_sched (rt : Rt n) (sched sched' : Sched) (s : Scatter n) :
    endAlike (s.init rt sched) (s.init rt sched') := by
  unfold Scatter.init
  rw [diversify_sched rt sched sched']
  cases s.diversify rt sched' (Scatter.seedPoints s.problem ++ s.customPoints) with
  | error e => exact endAlike_refl _
  | ok x =>
    obtain ⟨s1, ref⟩ := x
    dsimp only
    have := evalInit_alike s.parallel s.parallel sched.evals sched'.evals s.problem ref
    generalize Scatter.evalInit s.parallel sched.evals s.problem ref = r at *
    generalize Scatter.evalInit s.parallel sched'.evals s.problem ref = r' at *
    cases r with
    | ok a =>
      cases r' with
      | ok b =>
        have e : a = b := this
        rw [e]; exact rfl
      | error e => exact False.elim this
    | error e =>
      cases r' with
      | ok b => exact False.elim (by cases e <;> exact this)
      | error e' => cases e <;> cases e' <;> exact this

theorem diversify_length {rt : Rt n} {sched : Sched} {s s1 : Scatter n} {start ref : List (Pt n)}
    (h : s.diversify rt sched start = .ok (s1, ref)) :
    ref.length = Nat.max s.params.populationSize start.length := by
  unfold Scatter.diversify at h
  split at h
  · cases h
  · dsimp only at h
    split at h
    · cases h
    · rename_i hl
      cases h
      obtain ⟨added, rest, rfl, hlen, _⟩ := Scatter.divLoop_ok hl
      rw [List.length_append, hlen]
      exact max_sub _ _

theorem evalInit_small {par : Bool} {order : List Nat} {p : Problem n} {l : List (Pt n)}
    (hl : l.length < 20) : Scatter.evalInit par order p l = Scatter.evalAll p l := by
  unfold Scatter.evalInit
  rw [if_neg (by rw [Bool.and_eq_true, decide_eq_true_eq]; omega)]

theorem init_small {rt : Rt n} {sched sched' : Sched} {s : Scatter n}
    (hl : Nat.max s.params.populationSize (Scatter.seedPoints s.problem ++ s.customPoints).length < 20) :
    s.init rt sched = s.init rt sched' := by
  unfold Scatter.init
  rw [diversify_sched rt sched sched']
  cases hd : s.diversify rt sched' (Scatter.seedPoints s.problem ++ s.customPoints) with
  | error e => rfl
  | ok x =>
    have hx : x.2.length < 20 := by rw [diversify_length (s1 := x.1) (ref := x.2) hd]; exact hl
    dsimp only
    rw [evalInit_small hx, evalInit_small hx]

theorem best_any (sched sched' : Sched) (s s' : Scatter n) (h1 : s.refObjs = s'.refObjs)
    (h2 : s.refSet = s'.refSet) : s.best sched = s'.best sched' := by
  have key : ∀ (sched : Sched) (s : Scatter n), s.best sched =
      match reduceSeq (minOp Prod.fst) s.refObjs.zipIdx with
      | none => .error .noCandidates
      | some (_, i) =>
        match s.refSet[i]? with
        | some p => .ok p
        | none => .error .panic := by
    intro sched s
    unfold Scatter.best
    have : (if s.parallel then sched.minBy.reduce (reduceSeq (minOp Prod.fst))
        (optOp (minOp Prod.fst)) s.refObjs.zipIdx else reduceSeq (minOp Prod.fst) s.refObjs.zipIdx) =
        reduceSeq (minOp Prod.fst) s.refObjs.zipIdx := by
      split
      · exact split_reduce_eq (minOp_assoc Prod.fst) _ _
      · rfl
    dsimp only
    rw [this]
    rfl
  rw [key, key, h1, h2]

theorem update_thr {rt : Rt n} {sched sched' : Sched} {s : Scatter n} {trials : List (Pt n)}
    (h : Scatter.distThreshold s.parallel sched.sum s.refSet =
      Scatter.distThreshold s.parallel sched'.sum s.refSet) :
    s.update rt sched trials = s.update rt sched' trials := by
  have e : Scatter.acceptedTrials sched s trials = Scatter.acceptedTrials sched' s trials := by
    unfold Scatter.acceptedTrials
    rw [h]
  unfold Scatter.update
  rw [e]

/-- The sum of the sampled distances of the initialised reference set is the same for both
schedules. -/
def sameSum (rt : Rt n) (sched sched' : Sched) (s : Scatter n) : Prop :=
  ∀ s1, s.init rt sched = .ok s1 →
    Scatter.sumDists s1.parallel sched.sum (Scatter.sampledDists s1.refSet) =
      Scatter.sumDists s1.parallel sched'.sum (Scatter.sampledDists s1.refSet)

theorem run_sched {rt : Rt n} {sched sched' : Sched} {s : Scatter n}
    (hinit : s.init rt sched = s.init rt sched')
    (hsum : sameSum rt sched sched' s) : s.run rt sched = s.run rt sched' := by
  unfold Scatter.run
  rw [← hinit]
  cases hi : s.init rt sched with
  | error e => rfl
  | ok s1 =>
    dsimp only
    cases ht : s1.trialPoints rt with
    | none => rfl
    | some x =>
      obtain ⟨s2, trials⟩ := x
      dsimp only
      have e2 := (Scatter.trialPoints_parts ht).1
      have hpar : s2.parallel = s1.parallel := by rw [e2]
      have hset : s2.refSet = s1.refSet := by rw [e2]
      have hthr : Scatter.distThreshold s2.parallel sched.sum s2.refSet =
          Scatter.distThreshold s2.parallel sched'.sum s2.refSet := by
        unfold Scatter.distThreshold
        rw [hpar, hset, hsum s1 hi]
      rw [update_thr (rt := rt) (trials := trials) hthr]
      cases hu : s2.update rt sched' trials with
      | none => rfl
      | some s3 =>
        dsimp only
        rw [best_any sched sched' s3 s3 rfl rfl, hthr]

/-- C24 (partial: rayon's floating-point sum depends on the schedule, see `C24_sum_order_matters`): if
the two schedules give the same sum of sampled distances, stage 1 ends alike: with the same result, or with
the failure of an evaluation in both cases. -/
theorem C24_schedule_partial (rt : Rt n) (sched sched' : Sched) (s : Scatter n)
    (hsum : sameSum rt sched sched' s) : endAlike (s.run rt sched) (s.run rt sched') := by
  have hi := init_sched rt sched sched' s
  cases h : s.init rt sched with
  | ok s1 =>
    have h' := (endAlike_ok hi s1).1 h
    rw [run_sched (h.trans h'.symm) hsum]
    exact endAlike_refl _
  | error e =>
    rw [h] at hi
    unfold Scatter.run
    rw [h]
    cases h' : s.init rt sched' with
    | ok s1 =>
      rw [h'] at hi
      exact False.elim (by cases e <;> exact hi)
    | error e' =>
      rw [h'] at hi
      dsimp only
      cases e <;> cases e' <;> exact hi

theorem nice_zero_add {x : F64} (h : Nice x) : F64.zero.add x = x := by
  have hz1 : F64.zero.isNaN = false := by decide
  have hz2 : F64.zero.isInf = false := by decide
  rcases class_cases x with hc | hc | hc
  · rw [h.2 hc.1]; decide
  · unfold F64.add
    simp only [hz1, hz2, hc.1, hc.2.1, Bool.or_self, Bool.false_eq_true, if_false, if_true]
  · have hk := key_add (x := F64.zero) (y := x) (by decide) hc.2.2
    have hn : (F64.zero.add x).neg = false := (nice_add nice_zero h).1
    have : F64.zero.toInt = 0 := by decide
    rw [this, Int.zero_add] at hk
    have h2 := rkey_toInt hc.1 1 (by decide)
    simp only [Nat.cast_one, one_mul] at h2
    exact eq_of_key hn h.1 (by rw [hk, h2])

theorem nice_add_zero {x : F64} (h : Nice x) : x.add F64.zero = x := by
  have hz1 : F64.zero.isNaN = false := by decide
  have hz2 : F64.zero.isInf = false := by decide
  rcases class_cases x with hc | hc | hc
  · rw [h.2 hc.1]; decide
  · unfold F64.add
    simp only [hz1, hz2, hc.1, hc.2.1, Bool.or_self, Bool.false_eq_true, if_false, if_true,
      Bool.false_and]
  · have hk := key_add (x := x) (y := F64.zero) hc.2.2 (by decide)
    have hn : (x.add F64.zero).neg = false := (nice_add h nice_zero).1
    have : F64.zero.toInt = 0 := by decide
    rw [this, Int.add_zero] at hk
    have h2 := rkey_toInt hc.1 1 (by decide)
    simp only [Nat.cast_one, one_mul] at h2
    exact eq_of_key hn h.1 (by rw [hk, h2])

theorem sum_short (sp : Split) (l : List F64) (hl : l.length ≤ 2) (hn : ∀ x ∈ l, Nice x) :
    sp.reduce (fun l => l.foldl F64.add F64.zero) F64.add l = l.foldl F64.add F64.zero := by
  induction sp generalizing l with
  | leaf => rfl
  | node k a b iha ihb =>
    unfold Split.reduce
    rw [iha _ (by rw [List.length_take]; omega) fun x hx => hn x (List.mem_of_mem_take hx),
      ihb _ (by rw [List.length_drop]; omega) fun x hx => hn x (List.mem_of_mem_drop hx)]
    match l, k with
    | [], k => simp [add_zero_zero]
    | [x], 0 => simpa using nice_zero_add (nice_add nice_zero (hn x (by simp)))
    | [x], k + 1 => simpa using nice_add_zero (nice_add nice_zero (hn x (by simp)))
    | [x, y], 0 =>
      simpa using nice_zero_add (nice_add (nice_add nice_zero (hn x (by simp))) (hn y (by simp)))
    | [x, y], 1 => simp [nice_zero_add (hn x (by simp)), nice_zero_add (hn y (by simp))]
    | [x, y], k + 2 =>
      simpa using nice_add_zero (nice_add (nice_add nice_zero (hn x (by simp))) (hn y (by simp)))
    | _ :: _ :: _ :: _, _ => simp only [List.length_cons] at hl; omega

theorem sampledDists_length (ref : List (Pt n)) :
    (Scatter.sampledDists ref).length ≤ Scatter.kOf ref.length := by
  unfold Scatter.sampledDists
  refine (List.length_filterMap_le _ _).trans ?_
  rw [List.length_range]

theorem sampledDists_nice (ref : List (Pt n)) : ∀ x ∈ Scatter.sampledDists ref, Nice x := by
  intro x hx
  unfold Scatter.sampledDists at hx
  rw [List.mem_filterMap] at hx
  obtain ⟨i, _, h⟩ := hx
  split at h
  · injection h with h
    subst h
    exact nice_dist2 _ _
  · cases h

theorem kOf_small : ∀ m, m ≤ 8 → Scatter.kOf m ≤ 2 := by
  have : ∀ m < 9, Scatter.kOf m ≤ 2 := by decide +kernel
  exact fun m hm => this m (by omega)

/-- C24: for reference sets of at most eight points stage 1 does not depend on the schedule at all. -/
theorem C24_small_sets (rt : Rt n) (hv : rt.Valid) (sched sched' : Sched) (s : Scatter n)
    (h8 : Nat.max s.params.populationSize (starters s).length ≤ 8) :
    s.run rt sched = s.run rt sched' := by
  rw [← starters_length] at h8
  refine run_sched (init_small (by rw [List.length_append]; omega)) ?_
  intro s1 hi
  have hlen := (init_length hv hi).1
  have hk : Scatter.kOf s1.refSet.length ≤ 2 := by
    exact kOf_small _ (by rw [hlen]; exact h8)
  have hl := sampledDists_length s1.refSet
  have hn := sampledDists_nice s1.refSet
  unfold Scatter.sumDists
  split
  · rw [sum_short _ _ (by omega) hn, sum_short _ _ (by omega) hn]
  · rfl

/-! ### C25 -/

/-- Every distance between a candidate and a starting point that the sequential code would treat as
zero is exactly zero. -/
def noTinyDistances (rt : Rt n) (s : Scatter n) : Prop :=
  ∀ s1 cand, s.candidates rt (starters s).length = .ok (s1, cand) → ∀ c ∈ cand, ∀ q ∈ starters s,
      F64.lt (dist2 c q) (F64.lit 1 (10 ^ 14)) = true → dist2 c q = F64.zero

theorem retry_parallel (rt : Rt n) (b : Bool) (left : Nat) (s : Scatter n) (cand : List (Pt n)) :
    Scatter.retry rt left (s.setParallel b) cand =
      (Scatter.retry rt left s cand).map fun x => (x.1.setParallel b, x.2) := by
  induction left generalizing s cand with
  | zero => rfl
  | succ left ih =>
    have hs : ∀ k, (s.setParallel b).samples rt k =
        (s.samples rt k).map fun x => (x.1.setParallel b, x.2) := by
      intro k
      unfold Scatter.samples Scatter.setParallel Scatter.seeds
      dsimp only
      rw [Option.map_map]; rfl
    unfold Scatter.retry
    show (if cand.length < s.params.populationSize then _ else _) = _
    split
    · rw [show (s.setParallel b).params.populationSize = s.params.populationSize from rfl, hs]
      cases hsm : s.samples rt (s.params.populationSize * 2) with
      | none => rfl
      | some x =>
        obtain ⟨s', batch⟩ := x
        simp only [Option.map_some]
        exact ih s' _
    · rfl

theorem candidates_parallel (rt : Rt n) (b : Bool) (s : Scatter n) (refLen : Nat) :
    (s.setParallel b).candidates rt refLen =
      match s.candidates rt refLen with
      | .error e => .error e
      | .ok x => .ok (x.1.setParallel b, x.2) := by
  have hs : ∀ k, (s.setParallel b).samples rt k =
      (s.samples rt k).map fun x => (x.1.setParallel b, x.2) := by
    intro k
    unfold Scatter.samples Scatter.setParallel Scatter.seeds
    dsimp only
    rw [Option.map_map]; rfl
  unfold Scatter.candidates
  rw [show (s.setParallel b).params.populationSize = s.params.populationSize from rfl, hs,
    show (s.setParallel b).problem = s.problem from rfl]
  cases hsm : s.samples rt s.params.populationSize with
  | none => rfl
  | some x =>
    obtain ⟨s', cand0⟩ := x
    simp only [Option.map_some]
    by_cases he : s.problem.constraints.isEmpty = true
    · simp only [he, if_true]
    · simp only [he]
      rw [if_neg (by simp), if_neg (by simp), retry_parallel]
      cases hr : Scatter.retry rt 10 s' (cand0.filter (Scatter.isFeasible s.problem.constraints)) with
      | none => rfl
      | some y =>
        obtain ⟨s2, cand, a⟩ := y
        simp only [Option.map_some]
        split
        · rfl
        · split <;> rfl

theorem diversify_parallel (rt : Rt n) (sched sched' : Sched) (s : Scatter n)
    (h : noTinyDistances rt s) :
    (s.setParallel false).diversify rt sched (Scatter.seedPoints s.problem ++ s.customPoints) =
      match (s.setParallel true).diversify rt sched'
        (Scatter.seedPoints s.problem ++ s.customPoints) with
      | .error e => .error e
      | .ok x => .ok (x.1.setParallel false, x.2) := by
  unfold noTinyDistances at h
  rw [← starters_eq] at h
  unfold Scatter.diversify
  rw [candidates_parallel, candidates_parallel]
  cases hc : s.candidates rt (Scatter.seedPoints s.problem ++ s.customPoints).length with
  | error e => rfl
  | ok x =>
    obtain ⟨s1, cand⟩ := x
    dsimp only
    have e : (cand.zipIdx.map fun x : Pt n × Nat => Scatter.minDistance (s.setParallel false).parallel
          (sched.minDist x.2) x.1 (Scatter.seedPoints s.problem ++ s.customPoints)) =
        cand.zipIdx.map fun x => Scatter.minDistance (s.setParallel true).parallel (sched'.minDist x.2) x.1
          (Scatter.seedPoints s.problem ++ s.customPoints) := by
      apply List.map_congr_left
      intro x hx
      have hxc : x.1 ∈ cand := by
        obtain ⟨p, i⟩ := x
        exact List.fst_mem_of_mem_zipIdx hx
      show Scatter.minDistSeq x.1 F64.inf _ = Scatter.minDistPar _ x.1 _
      refine isMin_unique (l := (Scatter.seedPoints s.problem ++ s.customPoints).map (dist2 x.1)) ?_
        (Scatter.minDistSeq_isMin x.1 _ fun q hq => h s1 cand hc x.1 hxc q hq)
        (Scatter.minDistPar_isMin _ _ _)
      intro d hd
      rw [List.mem_map] at hd
      obtain ⟨q, _, rfl⟩ := hd
      exact (nice_dist2 _ _).1
    rw [e]
    rw [divLoop_any (s.setParallel false).parallel (s.setParallel true).parallel sched sched']
    rw [show (s.setParallel false).params = (s.setParallel true).params from rfl]
    generalize Scatter.divLoop _ _ _ _ _ _ _ = r
    cases r <;> rfl

/-- The initialised search with the parallel flag taken away. -/
def asSequential : Except ScatterErr (Scatter n) → Except ScatterErr (Scatter n)
  | .error e => .error e
  | .ok x => .ok (x.setParallel false)

theorem init_parallel (rt : Rt n) (sched sched' : Sched) (s : Scatter n)
    (h : noTinyDistances rt s) :
    endAlike ((s.setParallel false).init rt sched) (asSequential ((s.setParallel true).init rt sched')) ∧
    (Nat.max s.params.populationSize (Scatter.seedPoints s.problem ++ s.customPoints).length < 20 →
      (s.setParallel false).init rt sched = asSequential ((s.setParallel true).init rt sched')) := by
  unfold Scatter.init
  have e := diversify_parallel rt sched sched' s h
  rw [show Scatter.seedPoints (s.setParallel false).problem ++ (s.setParallel false).customPoints =
    Scatter.seedPoints s.problem ++ s.customPoints from rfl, e,
    show Scatter.seedPoints (s.setParallel true).problem ++ (s.setParallel true).customPoints =
    Scatter.seedPoints s.problem ++ s.customPoints from rfl]
  cases hd : (s.setParallel true).diversify rt sched' (Scatter.seedPoints s.problem ++ s.customPoints) with
  | error e => exact ⟨endAlike_refl _, fun _ => rfl⟩
  | ok x =>
    obtain ⟨s1, ref⟩ := x
    dsimp only
    rw [show (s.setParallel false).problem = (s.setParallel true).problem from rfl]
    refine ⟨?_, fun hl => ?_⟩
    · have := evalInit_alike (s.setParallel false).parallel (s.setParallel true).parallel sched.evals
        sched'.evals (s.setParallel true).problem ref
      generalize Scatter.evalInit (s.setParallel false).parallel sched.evals (s.setParallel true).problem
        ref = r at *
      generalize Scatter.evalInit (s.setParallel true).parallel sched'.evals (s.setParallel true).problem
        ref = r' at *
      cases r with
      | ok a =>
        cases r' with
        | ok b =>
          have e : a = b := this
          rw [e]; exact rfl
        | error e => exact False.elim this
      | error e =>
        cases r' with
        | ok b => exact False.elim (by cases e <;> exact this)
        | error e' => cases e <;> cases e' <;> exact this
    · have hx : ref.length < 20 := by rw [diversify_length hd]; exact hl
      rw [evalInit_small hx, evalInit_small hx]
      generalize Scatter.evalAll _ _ = r
      cases r <;> rfl

/-- The parallel sum of the sampled distances equals the sequential one. -/
def sumAsSequential (rt : Rt n) (sched : Sched) (s : Scatter n) : Prop :=
  ∀ s1, s.init rt sched = .ok s1 →
    Scatter.sumDists true sched.sum (Scatter.sampledDists s1.refSet) =
      Scatter.sumDists false sched.sum (Scatter.sampledDists s1.refSet)

theorem modes_run {rt : Rt n} {sched sched' : Sched} {s : Scatter n}
    (hinit : (s.setParallel false).init rt sched = asSequential ((s.setParallel true).init rt sched'))
    (hsum : sumAsSequential rt sched' (s.setParallel true)) :
    (s.setParallel false).run rt sched = (s.setParallel true).run rt sched' := by
  unfold Scatter.run
  rw [hinit]
  unfold asSequential
  cases hi : (s.setParallel true).init rt sched' with
  | error e => rfl
  | ok s1 =>
    dsimp only
    rw [C23_mode]
    cases ht : s1.trialPoints rt with
    | none => rfl
    | some x =>
      obtain ⟨s2, trials⟩ := x
      simp only [Option.map_some]
      have e2 := (Scatter.trialPoints_parts ht).1
      have hset : s2.refSet = s1.refSet := by rw [e2]
      have hpar : s2.parallel = true := by
        have hp : s1.parallel = true := by
          unfold Scatter.init at hi
          split at hi
          · cases hi
          · rename_i s0 ref hd
            split at hi
            · cases hi
            · cases hi
              obtain ⟨cand, hcd, _⟩ := C21_greedy_partial _ _ _ _ _ _ hd
              obtain ⟨k, D, hD, _⟩ := Scatter.candidates_ok hcd
              rw [(Scatter.samples_ok hD).1]; rfl
        rw [e2]; exact hp
      have hthr : Scatter.distThreshold false sched.sum s2.refSet =
          Scatter.distThreshold true sched'.sum s2.refSet := by
        unfold Scatter.distThreshold
        rw [hset, hsum s1 hi]
        rfl
      have hacc : Scatter.acceptedTrials sched (s2.setParallel false) trials =
          Scatter.acceptedTrials sched' s2 trials := by
        unfold Scatter.acceptedTrials
        show List.filterMap (Scatter.evalTrial (s2.setParallel false)
          (Scatter.distThreshold false sched.sum s2.refSet) _) _ = _
        rw [hthr, hpar]
        rfl
      have hupd : (s2.setParallel false).update rt sched trials =
          (s2.update rt sched' trials).map fun x => x.setParallel false := by
        unfold Scatter.update
        rw [hacc]
        split
        · rfl
        · dsimp only
          split
          · rfl
          · rw [Option.map_map]; rfl
      rw [hupd]
      cases hu : s2.update rt sched' trials with
      | none => rfl
      | some s3 =>
        simp only [Option.map_some]
        rw [best_any sched sched' (s3.setParallel false) s3 rfl rfl]
        split
        · rfl
        · rw [hpar, ← hthr]
          rfl

/-- C25 (partial: needs the absence of tiny non-zero distances and equal sums, see
`C25_modes_differ` and `C24_sum_order_matters`): sequential and parallel stage 1 end alike: with the same
result, or with the failure of an evaluation in both cases. -/
theorem C25_modes_partial (rt : Rt n) (sched sched' : Sched) (s : Scatter n)
    (h : noTinyDistances rt s) (hsum : sumAsSequential rt sched' (s.setParallel true)) :
    endAlike ((s.setParallel false).run rt sched) ((s.setParallel true).run rt sched') := by
  have hi := (init_parallel rt sched sched' s h).1
  cases h1 : (s.setParallel true).init rt sched' with
  | ok s1 =>
    have h2 : asSequential ((s.setParallel true).init rt sched') = .ok (s1.setParallel false) := by
      rw [h1]; rfl
    rw [modes_run (((endAlike_ok hi _).2 h2).trans h2.symm) hsum]
    exact endAlike_refl _
  | error e =>
    rw [h1] at hi
    unfold Scatter.run
    rw [h1]
    cases h2 : (s.setParallel false).init rt sched with
    | ok s1 => rw [h2] at hi; exact False.elim hi
    | error e' =>
      rw [h2] at hi
      dsimp only
      cases e <;> cases e' <;> exact hi

/-- C25: for reference sets of at most eight points only the cut-off for tiny distances matters. -/
theorem C25_small_sets_partial (rt : Rt n) (hv : rt.Valid) (sched sched' : Sched) (s : Scatter n)
    (h : noTinyDistances rt s) (h8 : Nat.max s.params.populationSize (starters s).length ≤ 8) :
    (s.setParallel false).run rt sched = (s.setParallel true).run rt sched' := by
  rw [← starters_length] at h8
  refine modes_run ((init_parallel rt sched sched' s h).2 (by rw [List.length_append]; omega)) ?_
  intro s1 hi
  have hlen := (init_length hv hi).1
  have hk : Scatter.kOf s1.refSet.length ≤ 2 := by
    exact kOf_small _ (by rw [hlen]; exact h8)
  have hl := sampledDists_length s1.refSet
  have hn := sampledDists_nice s1.refSet
  unfold Scatter.sumDists
  rw [if_pos rfl, sum_short _ _ (by omega) hn]
  rfl

/-! ### Examples and counterexamples -/

open Witness

/-- The hypothesis of `C25_modes_partial` on the example problem: samples lie on the bounds. -/
example : Nat.max (params 4 5 0).populationSize
    (starters (scat lin (params 4 5 0) none)).length ≤ 8 := by decide +kernel

example : noTinyDistances (rt 1) (scat lin (params 4 5 0) none) := by
  intro s1 cand hc
  have hcand : (match (scat lin (params 4 5 0) none).candidates (rt 1)
      (starters (scat lin (params 4 5 0) none)).length with
    | .ok (_, cand) => cand.all fun c => (starters (scat lin (params 4 5 0) none)).all fun q =>
          !F64.lt (dist2 c q) (F64.lit 1 (10 ^ 14)) || decide (dist2 c q = F64.zero)
    | .error _ => false) = true := by decide +kernel
  rw [hc] at hcand
  dsimp only at hcand
  intro c hcm q hq hlt
  rw [List.all_eq_true] at hcand
  have := hcand c hcm
  rw [List.all_eq_true] at this
  have := this q hq
  rw [Bool.or_eq_true, hlt] at this
  simpa using this

/-- Minimise `x` over `[0, 1]`. -/
def unit : Problem 1 := ⟨fun p => .ok (p 0), pt F64.zero, pt F64.one, []⟩

/-- Samples about 0.3012, 0.9516 and 0.97; perturbation about -0.0450. -/
def unitRt : Rt 1 := rtWith
  (fun seed _ => if seed = 0 then ⟨false, 4599097717069867886, by decide⟩
    else if seed = 1 then ⟨false, 4606747042096408516, by decide⟩ else F64.lit 97 100)
  (fun _ _ => ⟨true, 4586653384516924714, by decide⟩)

/-- The scheduler splits the sum of sampled distances after the first item. -/
def splitSum : Sched := { sched with sum := .node 1 .leaf .leaf }

/-- Points of the reference set returned by a scatter search with the given schedule. -/
def refPoints (r : Except ScatterErr (Scatter.Result 1)) : Option (List F64) :=
  match r with
  | .ok r => some (r.ref.map fun x => x.1 0)
  | .error _ => none

/-- C24 is violated: two schedules (which differ only in the order of a floating-point sum) give
different reference sets. -/
theorem C24_sum_order_matters :
    (unitRt.Valid) ∧ refPoints ((scat unit (params 4 9 0) none).run unitRt sched) ≠
      refPoints ((scat unit (params 4 9 0) none).run unitRt splitSum) :=
  ⟨rtWith_valid _ _, by decide +kernel⟩

/-- An objective that fails differently at the two bounds. -/
def failingBoth : Problem 1 :=
  ⟨fun p => if p 0 = F64.zero then .error ⟨1⟩ else if p 0 = F64.one then .error ⟨2⟩ else .ok (p 0),
    pt F64.zero, pt F64.one, []⟩

/-- With 20 points or more, which of several failures stage 1 reports depends on the schedule; so
`endAlike` cannot be replaced by equality in `C24_schedule_partial`. -/
theorem C24_error_depends_on_order :
    (scat failingBoth (params 4 20 0) none).run unitRt { sched with evals := [0, 1] } =
      .error (.evaluation ⟨1⟩) ∧
    (scat failingBoth (params 4 20 0) none).run unitRt { sched with evals := [1, 0] } =
      .error (.evaluation ⟨2⟩) := by
  have key : ∀ (r : Except ScatterErr (Scatter.Result 1)) (x : EvalErr),
      (match r with | .error (.evaluation y) => decide (x = y) | _ => false) = true →
        r = .error (.evaluation x) := by
    intro r x h
    split at h
    · rw [of_decide_eq_true h]
    · cases h
  exact ⟨key _ _ (by decide +kernel), key _ _ (by decide +kernel)⟩

/-- C25 is violated: at small scales the sequential and the parallel mode give different sets. -/
theorem C25_modes_differ :
    tinyRt.Valid ∧
    refPoints (((scat tiny (params 4 4 0) none).setParallel false).run tinyRt sched) ≠
      refPoints (((scat tiny (params 4 4 0) none).setParallel true).run tinyRt sched) :=
  ⟨rtWith_valid _ _, by decide +kernel⟩

end GS.Props
