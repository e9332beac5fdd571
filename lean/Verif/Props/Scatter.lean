/- C14-C20: the reference set produced by scatter search. -/
import Verif.Lemmas.Bounds
import Verif.Lemmas.Witness
import Verif.Props.SolutionSet

namespace GS.Props
open GS F64
variable {n : Nat}

/-- All registered custom points are inside the bounds (guaranteed by `with_points`, see C12). -/
def customInside (s : Scatter n) : Prop := ∀ l, s.custom = some l → ∀ x ∈ l, inBounds s.problem x

/-- The point is not known to violate a constraint: no constraint function is below zero. -/
def satisfies (p : Problem n) (x : Pt n) : Prop := ∀ c ∈ p.constraints, F64.lt (c x) F64.zero = false

instance (p : Problem n) (x : Pt n) : Decidable (satisfies p x) :=
  inferInstanceAs (Decidable (∀ c ∈ p.constraints, F64.lt (c x) F64.zero = false))

/-- The points every stage 1 is offered: both corners of the box, its midpoint and the custom points. -/
def offered (s : Scatter n) : List (Pt n) :=
  [s.problem.lower, s.problem.upper,
    fun i => ((s.problem.lower i).add (s.problem.upper i)).div F64.two] ++ s.custom.getD []

/-- The offered points that violate no constraint, in order. -/
def starters (s : Scatter n) : List (Pt n) := (offered s).filter fun x => decide (satisfies s.problem x)

theorem isFeasible_iff {p : Problem n} {x : Pt n} :
    Scatter.isFeasible p.constraints x = true ↔ satisfies p x := by
  unfold Scatter.isFeasible satisfies
  rw [List.all_eq_true]
  simp only [Bool.not_eq_true']

theorem isFeasible_eq (p : Problem n) :
    Scatter.isFeasible p.constraints = fun x => decide (satisfies p x) := by
  funext x
  rw [Bool.eq_iff_iff, isFeasible_iff, decide_eq_true_iff]

theorem starters_eq (s : Scatter n) :
    Scatter.seedPoints s.problem ++ s.customPoints = starters s := by
  have hall : s.problem.constraints.isEmpty = true → ∀ l : List (Pt n),
      l.filter (fun x => decide (satisfies s.problem x)) = l := by
    intro h l
    rw [List.filter_eq_self]
    intro x _
    rw [decide_eq_true_iff]
    intro c hc
    rw [List.isEmpty_iff.1 h] at hc
    cases hc
  have h1 : Scatter.seedPoints s.problem = [s.problem.lower, s.problem.upper,
      fun i => ((s.problem.lower i).add (s.problem.upper i)).div F64.two].filter
        fun x => decide (satisfies s.problem x) := by
    unfold Scatter.seedPoints
    dsimp only
    split
    · rename_i h; rw [hall h]; rfl
    · rw [isFeasible_eq]; rfl
  have h2 : s.customPoints = (s.custom.getD []).filter fun x => decide (satisfies s.problem x) := by
    unfold Scatter.customPoints
    cases s.custom with
    | none => rfl
    | some l =>
      dsimp only
      split
      · rename_i h; rw [hall h]; rfl
      · rw [isFeasible_eq]; rfl
  rw [h1, h2, ← List.filter_append]; rfl

theorem starters_length (s : Scatter n) :
    (Scatter.seedPoints s.problem).length + s.customPoints.length = (starters s).length := by
  rw [← starters_eq, List.length_append]

theorem mem_starters {s : Scatter n} {x : Pt n} :
    (x ∈ Scatter.seedPoints s.problem ∨ x ∈ s.customPoints) ↔ x ∈ offered s ∧ satisfies s.problem x := by
  rw [← List.mem_append, starters_eq]
  unfold starters
  rw [List.mem_filter, decide_eq_true_iff]

theorem satisfies_of_empty {p : Problem n} (h : p.constraints.isEmpty = true) (x : Pt n) :
    satisfies p x := by
  rw [List.isEmpty_iff] at h
  intro c hc; rw [h] at hc; cases hc

/-! ### C14 -/

theorem finite_of_inBounds {p : Problem n} (hp : GoodBounds p) {x : Pt n} (h : inBounds p x) (i : Fin n) :
    (x i).isFinite = true := finite_of_between (hp.lower i) (hp.upper i) (h i).1 (h i).2

theorem seeds_inBounds {p : Problem n} (hp : GoodBounds p) {x : Pt n}
    (h : x ∈ Scatter.seedPoints p) : inBounds p x := by
  have : x ∈ [p.lower, p.upper, Scatter.midpoint p] := by
    unfold Scatter.seedPoints at h
    dsimp only at h
    split at h
    · exact h
    · exact (List.mem_filter.1 h).1
  simp only [List.mem_cons, List.not_mem_nil, or_false] at this
  intro i
  rcases this with rfl | rfl | rfl
  · exact ⟨le_refl_of (fin_not_nan (hp.lower i)), hp.ordered i⟩
  · exact ⟨hp.ordered i, le_refl_of (fin_not_nan (hp.upper i))⟩
  · exact midpoint_mem (hp.lower i) (hp.upper i) (hp.ordered i) (hp.sum i)

theorem customPoints_mem {s : Scatter n} {x : Pt n} (h : x ∈ s.customPoints) :
    ∃ l, s.custom = some l ∧ x ∈ l := by
  unfold Scatter.customPoints at h
  split at h
  · cases h
  · rename_i l hl
    refine ⟨l, hl, ?_⟩
    split at h
    · exact h
    · exact (List.mem_filter.1 h).1

theorem init_inBounds {rt : Rt n} (hv : rt.Valid) {sched : Sched} {s s1 : Scatter n}
    (hp : GoodBounds s.problem) (hc : customInside s) (h : s.init rt sched = .ok s1)
    {x : Pt n} (hx : x ∈ s1.refSet) : inBounds s.problem x := by
  obtain ⟨k, D, added, rest, s0, hD, _, _, hperm, _, hset, _, _, _⟩ := Scatter.init_ok hv h
  rw [hset.mem_iff, List.mem_append, List.mem_append] at hx
  rcases hx with (hx | hx) | hx
  · exact seeds_inBounds hp hx
  · obtain ⟨l, hl, hx⟩ := customPoints_mem hx
    exact hc l hl x hx
  · have hxD : x ∈ D := by
      have : x ∈ added ++ rest := List.mem_append_left _ hx
      rw [hperm.mem_iff] at this
      split at this
      · exact this
      · exact (List.mem_filter.1 this).1
    obtain ⟨sd, hsd⟩ := Scatter.samples_mem hD hxD
    intro i
    exact hv.uniformIncl_mem _ _ _ _ _ (Scatter.sample_some hsd i)

/-- C14: combining two in-bounds points yields in-bounds points, although the combination itself may
overflow. -/
theorem C14_combine (rt : Rt n) (hv : rt.Valid) (p : Problem n) (hp : GoodBounds p) (a b : Pt n)
    (ha : inBounds p a) (hb : inBounds p b) (seed : Nat) (l : List (Pt n))
    (h : Scatter.combine rt p a b seed = some l) (x : Pt n) (hx : x ∈ l) : inBounds p x := by
  obtain ⟨y, hy, hcase⟩ := (Scatter.combine_ok h).2 x hx
  have fa := finite_of_inBounds hp ha
  have fb := finite_of_inBounds hp hb
  rcases hcase with ⟨al, hal, rfl⟩ | ⟨r, _, hr⟩
  · exact Scatter.applyBounds_mem (Scatter.lincomb_not_nan fa fb hal) hy
  · exact Scatter.applyBounds_mem (Scatter.perturb_not_nan hv hp fa fb hr) hy

/-- C14 (partial: the sum of the bounds must not overflow, see `C14_midpoint_overflow`): every trial
point is inside the bounds. -/
theorem C14_trial_points_partial (rt : Rt n) (hv : rt.Valid) (sched : Sched) (s s1 s2 : Scatter n)
    (hp : GoodBounds s.problem) (hc : customInside s) (trials : List (Pt n))
    (h1 : s.init rt sched = .ok s1) (h2 : s1.trialPoints rt = some (s2, trials))
    (x : Pt n) (hx : x ∈ trials) : inBounds s.problem x := by
  obtain ⟨k, _, _, _, _, _, _, e, _⟩ := Scatter.init_ok hv h1
  have hq : s1.problem = s.problem := by rw [e]
  obtain ⟨a, ha, b, hb, sd, part, hpart, hxp⟩ := Scatter.trialPoints_mem h2 hx
  rw [hq] at hpart
  exact C14_combine rt hv s.problem hp a b (init_inBounds hv hp hc h1 ha)
    (init_inBounds hv hp hc h1 hb) sd part hpart x hxp

theorem run_members {rt : Rt n} (hv : rt.Valid) {sched : Sched} {s : Scatter n}
    {r : Scatter.Result n} (h : s.run rt sched = .ok r) :
    ∃ s1 s2 trials, s.init rt sched = .ok s1 ∧ s1.trialPoints rt = some (s2, trials) ∧
      s2.problem = s.problem ∧ s2.params = s.params ∧ s2.refSet = s1.refSet ∧
      s2.refObjs = s1.refObjs ∧
      ∀ x v, (x, v) ∈ r.ref → (x, v) ∈ s1.refSet.zip s1.refObjs ∨
        (x, v) ∈ Scatter.acceptedTrials sched s2 trials := by
  obtain ⟨s1, s2, s3, trials, h1, h2, h3, h4, h5, h6, h7, h8, h9⟩ := Scatter.run_ok h
  obtain ⟨k, _, _, _, _, _, _, e, _⟩ := Scatter.init_ok hv h1
  have e2 := (Scatter.trialPoints_parts h2).1
  refine ⟨s1, s2, trials, h1, h2, by rw [e2, e], by rw [e2, e], by rw [e2], by rw [e2], ?_⟩
  intro x v hx
  rw [h5] at hx
  rcases Scatter.update_ok hv h3 with ⟨rfl, _⟩ | ⟨_, _, _, _, disc, hperm, _⟩
  · rw [e2] at hx
    exact Or.inl hx
  · have : (x, v) ∈ s3.refSet.zip s3.refObjs ++ disc := List.mem_append_left _ hx
    rw [hperm.mem_iff, List.mem_append] at this
    rw [e2] at this
    rcases this with h | h
    · exact Or.inl h
    · rw [← e2] at h
      exact Or.inr h

theorem zip_fst_mem {α β : Type} {l : List α} {r : List β} {x : α} {v : β} (h : (x, v) ∈ l.zip r) :
    x ∈ l := (List.of_mem_zip h).1

/-- C14 (partial: the sum of the bounds must not overflow, see `C14_midpoint_overflow`): every point of
the returned reference set is inside the bounds. -/
theorem C14_reference_set_partial (rt : Rt n) (hv : rt.Valid) (sched : Sched) (s : Scatter n)
    (hp : GoodBounds s.problem) (hc : customInside s) (r : Scatter.Result n)
    (h : s.run rt sched = .ok r) (x : Pt n) (v : F64) (hx : (x, v) ∈ r.ref) :
    inBounds s.problem x := by
  obtain ⟨s1, s2, trials, h1, h2, _, _, _, _, hm⟩ := run_members hv h
  rcases hm x v hx with h | h
  · exact init_inBounds hv hp hc h1 (zip_fst_mem h)
  · exact C14_trial_points_partial rt hv sched s s1 s2 hp hc trials h1 h2 x (Scatter.accepted_mem h).1

/-! ### C15 -/

/-- C15: every returned point satisfies all constraints. -/
theorem C15_feasible (rt : Rt n) (hv : rt.Valid) (sched : Sched) (s : Scatter n)
    (r : Scatter.Result n) (h : s.run rt sched = .ok r) (x : Pt n) (v : F64) (hx : (x, v) ∈ r.ref) :
    satisfies s.problem x := by
  by_cases he : s.problem.constraints.isEmpty = true
  · exact satisfies_of_empty he x
  obtain ⟨s1, s2, trials, h1, h2, hq, _, _, _, hm⟩ := run_members hv h
  rcases hm x v hx with h | h
  · obtain ⟨k, D, added, rest, s0, hD, _, _, hperm, _, hset, _, _, _⟩ := Scatter.init_ok hv h1
    have hx := zip_fst_mem h
    rw [hset.mem_iff, List.mem_append, List.mem_append] at hx
    rcases hx with (hx | hx) | hx
    · unfold Scatter.seedPoints at hx
      dsimp only at hx
      rw [if_neg he] at hx
      exact isFeasible_iff.1 (List.mem_filter.1 hx).2
    · unfold Scatter.customPoints at hx
      split at hx
      · cases hx
      · rw [if_neg he] at hx
        exact isFeasible_iff.1 (List.mem_filter.1 hx).2
    · have : x ∈ added ++ rest := List.mem_append_left _ hx
      rw [hperm.mem_iff, if_neg he] at this
      exact isFeasible_iff.1 (List.mem_filter.1 this).2
  · have := (Scatter.accepted_mem h).2.2.1
    rw [hq] at this
    rcases this with h | h
    · exact absurd h he
    · exact isFeasible_iff.1 h

/-- C15 also holds for the point handed to the first local search. -/
theorem C15_best_feasible (rt : Rt n) (hv : rt.Valid) (sched : Sched) (s : Scatter n)
    (r : Scatter.Result n) (h : s.run rt sched = .ok r) : satisfies s.problem r.best := by
  obtain ⟨s1, s2, s3, trials, h1, h2, h3, h4, h5, _⟩ := Scatter.run_ok h
  have hl : s3.refObjs.length = s3.refSet.length := by
    obtain ⟨_, _, _, _, _, _, _, _, _, _, _, hl, _⟩ := Scatter.init_ok hv h1
    have e2 := (Scatter.trialPoints_parts h2).1
    rcases Scatter.update_ok hv h3 with ⟨rfl, _⟩ | ⟨_, _, ha, hb, _⟩
    · rw [e2]; exact hl
    · rw [ha, hb]
  obtain ⟨v, hv', _⟩ := Scatter.best_ok h4 hl
  rw [← h5] at hv'
  exact C15_feasible rt hv sched s r h _ v hv'

/-! ### C16 -/

/-- C16: each returned objective value is the objective of its point. -/
theorem C16_objectives (rt : Rt n) (hv : rt.Valid) (sched : Sched) (s : Scatter n)
    (r : Scatter.Result n) (h : s.run rt sched = .ok r) (x : Pt n) (v : F64) (hx : (x, v) ∈ r.ref) :
    s.problem.objective x = .ok v := by
  obtain ⟨s1, s2, trials, h1, h2, hq, _, _, _, hm⟩ := run_members hv h
  rcases hm x v hx with h | h
  · obtain ⟨_, _, _, _, _, _, _, _, _, _, _, _, ho, _⟩ := Scatter.init_ok hv h1
    exact ho x v h
  · have := (Scatter.accepted_mem h).2.1
    rwa [hq] at this

/-! ### C17 -/

/-- A trial point is accepted: it satisfies the constraints, is farther than the threshold from the
first five reference points, and its objective is below the worst one of the set. -/
def trialAccepted (sched : Sched) (s : Scatter n) (x : Pt n) : Prop :=
  satisfies s.problem x ∧
  (∀ y ∈ s.refSet.take 5,
    F64.lt (Scatter.distThreshold s.parallel sched.sum s.refSet) (dist2 x y) = true) ∧
  ∃ v w, s.problem.objective x = .ok v ∧ s.refObjs.getLast? = some w ∧ F64.lt v w = true

theorem accepted_iff {sched : Sched} {s : Scatter n} (hne : s.refObjs ≠ []) (x : Pt n)
    (trials : List (Pt n)) :
    (∃ v, (x, v) ∈ Scatter.acceptedTrials sched s trials) ↔ x ∈ trials ∧ trialAccepted sched s x := by
  obtain ⟨w, hw⟩ : ∃ w, s.refObjs.getLast? = some w :=
    ⟨s.refObjs.getLast hne, List.getLast?_eq_some_getLast hne⟩
  have hte : Scatter.trialEvaluated s (Scatter.distThreshold s.parallel sched.sum s.refSet) x = true ↔
      satisfies s.problem x ∧ (∀ y ∈ s.refSet.take 5,
    F64.lt (Scatter.distThreshold s.parallel sched.sum s.refSet) (dist2 x y) = true) := by
    unfold Scatter.trialEvaluated
    rw [Bool.and_eq_true, List.all_eq_true, Bool.or_eq_true, isFeasible_iff]
    unfold F64.gt
    constructor
    · rintro ⟨h1, h2⟩
      exact ⟨h1.elim (fun h => satisfies_of_empty h x) id, h2⟩
    · rintro ⟨h1, h2⟩
      exact ⟨Or.inr h1, h2⟩
  constructor
  · rintro ⟨v, hv⟩
    obtain ⟨h1, h2, h3, h4⟩ := Scatter.accepted_mem hv
    rw [hw, Option.getD_some] at h4
    unfold Scatter.acceptedTrials at hv
    rw [List.mem_filterMap] at hv
    obtain ⟨p, hp, h⟩ := hv
    unfold Scatter.evalTrial at h
    split at h
    · rename_i he
      split at h
      · cases h
      · split at h
        · injection h with h
          injection h with hpx _
          subst hpx
          have := hte.1 he
          exact ⟨h1, this.1, this.2, v, w, h2, hw, h4⟩
        · cases h
    · cases h
  · rintro ⟨hx, h1, h2, v, w', h3, h4, h5⟩
    rw [hw] at h4
    injection h4 with h4
    subst h4
    refine ⟨v, ?_⟩
    unfold Scatter.acceptedTrials
    rw [List.mem_filterMap]
    refine ⟨x, hx, ?_⟩
    unfold Scatter.evalTrial
    rw [if_pos (hte.2 ⟨h1, h2⟩), h3, hw]
    dsimp only [Option.getD_some]
    rw [if_pos h5]

theorem max_sub (a b : Nat) : b + (a - b) = Nat.max a b := by
  show _ = max a b
  omega

theorem init_length {rt : Rt n} (hv : rt.Valid) {sched : Sched} {s s1 : Scatter n}
    (h : s.init rt sched = .ok s1) :
    s1.refSet.length =
      Nat.max s.params.populationSize ((Scatter.seedPoints s.problem).length + s.customPoints.length) ∧
    s1.refObjs.length = s1.refSet.length := by
  obtain ⟨_, _, added, _, _, _, _, _, _, hal, hset, hl, _, _⟩ := Scatter.init_ok hv h
  refine ⟨?_, hl⟩
  rw [hset.length_eq, List.length_append, hal, ← List.length_append, max_sub]

/-- C17: the reference set has `max(population_size, seeds + custom points)` points if no trial point
is accepted and exactly `population_size` points otherwise. -/
theorem C17_size (rt : Rt n) (hv : rt.Valid) (sched : Sched) (s : Scatter n)
    (r : Scatter.Result n) (h : s.run rt sched = .ok r) (hpos : 0 < s.params.populationSize) :
    ∃ s1 s2 trials, s.init rt sched = .ok s1 ∧ s1.trialPoints rt = some (s2, trials) ∧
      ((∀ x ∈ trials, ¬ trialAccepted sched s2 x) → r.ref.length = Nat.max s.params.populationSize
        (starters s).length) ∧
      ((∃ x ∈ trials, trialAccepted sched s2 x) → r.ref.length = s.params.populationSize) := by
  obtain ⟨s1, s2, s3, trials, h1, h2, h3, h4, h5, _⟩ := Scatter.run_ok h
  obtain ⟨hlen, hobj⟩ := init_length hv h1
  have e2 := (Scatter.trialPoints_parts h2).1
  obtain ⟨k, _, _, _, _, _, _, e1, _⟩ := Scatter.init_ok hv h1
  have hne : s2.refObjs ≠ [] := by
    have : s.params.populationSize ≤ s1.refSet.length := by
      rw [hlen]; exact Nat.le_max_left _ _
    intro hc
    rw [e2] at hc
    have : s1.refObjs.length = 0 := by simpa using hc
    omega
  have hpp : s2.params = s.params := by rw [e2, e1]
  refine ⟨s1, s2, trials, h1, h2, ?_, ?_⟩
  · intro hno
    have hacc : Scatter.acceptedTrials sched s2 trials = [] := by
      rw [List.eq_nil_iff_forall_not_mem]
      rintro ⟨x, v⟩ hx
      have := (accepted_iff hne x trials).1 ⟨v, hx⟩
      exact hno x this.1 this.2
    rcases Scatter.update_ok hv h3 with ⟨rfl, _⟩ | ⟨hc, _⟩
    · rw [h5, e2]
      rw [List.length_zip, hobj, Nat.min_self, hlen, starters_length]
    · exact absurd hacc hc
  · rintro ⟨x, hx, hacc⟩
    rcases Scatter.update_ok hv h3 with ⟨_, hc⟩ | ⟨_, _, ha, hb, _⟩
    · obtain ⟨v, hm⟩ := (accepted_iff hne x trials).2 ⟨hx, hacc⟩
      rw [hc] at hm; cases hm
    · rw [h5, List.length_zip, ha, hb, Nat.min_self, hpp]

/-- After the reference set is initialised a scatter search ends with an error only by a panic; so an
observer that was notified of the initialisation is not left behind by a later ordinary error. -/
theorem scatter_fails_early (rt : Rt n) (hv : rt.Valid) (sched : Sched) (s : Scatter n) (e : ScatterErr)
    (h : s.run rt sched = .error e) (hpos : 0 < s.params.populationSize) :
    s.init rt sched = .error e ∨ e = .panic := by
  unfold Scatter.run at h
  split at h
  · rename_i e' hi
    cases h
    exact Or.inl hi
  · rename_i s1 h1
    right
    split at h
    · cases h; rfl
    · rename_i s2 trials h2
      split at h
      · cases h; rfl
      · rename_i s3 h3
        split at h
        · rename_i e' hb
          cases h
          obtain ⟨hlen, hobj⟩ := init_length hv h1
          obtain ⟨k, _, _, _, _, _, _, e1, _⟩ := Scatter.init_ok hv h1
          have e2 := (Scatter.trialPoints_parts h2).1
          have hp : s.params.populationSize ≤ s1.refSet.length := by
            rw [hlen]; exact Nat.le_max_left _ _
          have hne : s3.refObjs ≠ [] := by
            intro hc
            rcases Scatter.update_ok hv h3 with ⟨rfl, _⟩ | ⟨_, _, ha, hb', _⟩
            · rw [e2] at hc
              have : s1.refObjs.length = 0 := by simpa using hc
              omega
            · have hpp : s2.params = s.params := by rw [e2, e1]
              rw [hc, hpp] at hb'
              simp at hb'
              omega
          unfold Scatter.best at hb
          have hz : s3.refObjs.zipIdx ≠ [] := by simpa using hne
          dsimp only at hb
          have hr : (if s3.parallel = true then sched.minBy.reduce (reduceSeq (minOp Prod.fst))
              (optOp (minOp Prod.fst)) s3.refObjs.zipIdx
              else reduceSeq (minOp Prod.fst) s3.refObjs.zipIdx).isSome = true := by
            split
            · rw [split_reduce_eq (minOp_assoc Prod.fst)]
              exact Option.isSome_iff_exists.2 (reduceSeq_isSome _ hz)
            · exact Option.isSome_iff_exists.2 (reduceSeq_isSome _ hz)
          split at hb
          · rename_i hn
            rw [hn] at hr; cases hr
          · split at hb
            · cases hb
            · cases hb; rfl
        · cases h

/-! ### C19 -/

theorem count_below {kept disc old acc : Scored n} (hperm : (kept ++ disc).Perm (old ++ acc))
    (hle : ∀ x ∈ kept, ∀ y ∈ disc, F64.tle x.2 y.2 = true) (hlen : kept.length ≤ old.length)
    {x : Pt n × F64} (hx : x ∈ kept) : ∃ y ∈ old, F64.tle x.2 y.2 = true := by
  by_contra hc
  have hc : ∀ y ∈ old, F64.tlt y.2 x.2 = true := by
    intro y hy
    by_contra hn
    exact hc ⟨y, hy, by rw [tle_iff]; rw [tlt_iff] at hn; omega⟩
  have h1 := hperm.countP_eq fun y => F64.tlt y.2 x.2
  rw [List.countP_append, List.countP_append] at h1
  have h2 : disc.countP (fun y => F64.tlt y.2 x.2) = 0 := by
    rw [List.countP_eq_zero]
    intro y hy
    have := hle x hx y hy
    rw [tle_iff] at this
    rw [tlt_iff]; omega
  have h3 : old.countP (fun y => F64.tlt y.2 x.2) = old.length :=
    List.countP_eq_length.2 hc
  have h4 : kept.countP (fun y => F64.tlt y.2 x.2) < kept.length := by
    rcases Nat.lt_or_eq_of_le (List.countP_le_length (p := fun y => F64.tlt y.2 x.2) (l := kept)) with h | h
    · exact h
    · rw [List.countP_eq_length] at h
      have := h x hx
      rw [tlt_iff] at this
      omega
  omega

/-- C19: `update_reference_set` keeps the best points: kept and discarded points together are the old
set plus the accepted trial points (all of which satisfy the acceptance conditions), and no discarded
point is below a kept one. -/
theorem C19_keeps_best (rt : Rt n) (hv : rt.Valid) (sched : Sched) (s s' : Scatter n)
    (trials : List (Pt n)) (h : s.update rt sched trials = some s') :
    ∃ acc disc, (s'.refSet.zip s'.refObjs ++ disc).Perm (s.refSet.zip s.refObjs ++ acc) ∧
      (∀ x v, (x, v) ∈ acc → x ∈ trials ∧ s.problem.objective x = .ok v) ∧
      (s.refObjs ≠ [] → ∀ x ∈ trials, trialAccepted sched s x → ∃ v, (x, v) ∈ acc) ∧
      ∀ x ∈ s'.refSet.zip s'.refObjs, ∀ y ∈ disc, F64.tle x.2 y.2 = true := by
  have hspec : ∀ x v, (x, v) ∈ Scatter.acceptedTrials sched s trials →
      x ∈ trials ∧ s.problem.objective x = .ok v := fun x v hm =>
    ⟨(Scatter.accepted_mem hm).1, (Scatter.accepted_mem hm).2.1⟩
  have hall : s.refObjs ≠ [] → ∀ x ∈ trials, trialAccepted sched s x →
      ∃ v, (x, v) ∈ Scatter.acceptedTrials sched s trials :=
    fun hne x hx ha => (accepted_iff hne x trials).2 ⟨hx, ha⟩
  rcases Scatter.update_ok hv h with ⟨rfl, he⟩ | ⟨_, _, _, _, disc, hperm, hle⟩
  · exact ⟨_, [], by rw [he], hspec, hall, by simp⟩
  · exact ⟨_, disc, hperm, hspec, hall, hle⟩

/-- C19: the worst objective never increases (for a set of at least `population_size` points, which
initialisation guarantees). -/
theorem C19_worst (rt : Rt n) (hv : rt.Valid) (sched : Sched) (s s' : Scatter n)
    (trials : List (Pt n)) (h : s.update rt sched trials = some s')
    (hl : s.refObjs.length = s.refSet.length) (hp : s.params.populationSize ≤ s.refSet.length) :
    ∀ v ∈ s'.refObjs, ∃ w ∈ s.refObjs, F64.tle v w = true := by
  intro v hm
  rcases Scatter.update_ok hv h with ⟨rfl, _⟩ | ⟨_, _, ha, hb, disc, hperm, hle⟩
  · exact ⟨v, hm, by rw [tle_iff]⟩
  · obtain ⟨i, hi⟩ := List.getElem?_of_mem hm
    have hi' := (List.getElem?_eq_some_iff.1 hi).1
    have hx : s'.refSet[i]? = some (s'.refSet[i]'(by omega)) := List.getElem?_eq_getElem _
    have hz : (s'.refSet[i]'(by omega), v) ∈ s'.refSet.zip s'.refObjs :=
      List.mem_of_getElem? (List.getElem?_zip_eq_some.2 ⟨hx, hi⟩)
    obtain ⟨⟨y, w⟩, hy, hyv⟩ := count_below hperm hle
      (by rw [List.length_zip, List.length_zip, ha, hb, hl]; omega) hz
    exact ⟨w, (List.of_mem_zip hy).2, hyv⟩

/-- C19: the best objective never increases. -/
theorem C19_best (rt : Rt n) (hv : rt.Valid) (sched : Sched) (s s' : Scatter n)
    (trials : List (Pt n)) (h : s.update rt sched trials = some s')
    (hl : s.refObjs.length = s.refSet.length) (hpos : 0 < s.params.populationSize) :
    ∀ w ∈ s.refObjs, ∃ v ∈ s'.refObjs, F64.tle v w = true := by
  intro w hm
  rcases Scatter.update_ok hv h with ⟨rfl, _⟩ | ⟨_, _, ha, hb, disc, hperm, hle⟩
  · exact ⟨w, hm, by rw [tle_iff]⟩
  · obtain ⟨i, hi⟩ := List.getElem?_of_mem hm
    have hi' := (List.getElem?_eq_some_iff.1 hi).1
    have hx : s.refSet[i]? = some (s.refSet[i]'(by omega)) := List.getElem?_eq_getElem _
    have hz : (s.refSet[i]'(by omega), w) ∈ s.refSet.zip s.refObjs :=
      List.mem_of_getElem? (List.getElem?_zip_eq_some.2 ⟨hx, hi⟩)
    have : (s.refSet[i]'(by omega), w) ∈ s'.refSet.zip s'.refObjs ++ disc :=
      hperm.mem_iff.2 (List.mem_append_left _ hz)
    rw [List.mem_append] at this
    rcases this with h | h
    · exact ⟨w, (List.of_mem_zip h).2, by rw [tle_iff]⟩
    · obtain ⟨⟨x, v⟩, hv'⟩ : ∃ x, x ∈ s'.refSet.zip s'.refObjs :=
        ⟨(s'.refSet.zip s'.refObjs)[0]'(by rw [List.length_zip]; omega), List.getElem_mem _⟩
      exact ⟨v, (List.of_mem_zip hv').2, hle _ hv' _ h⟩

/-! ### C18, C20 -/

/-- Every point evaluated while initialising is in the set before intensification. -/
theorem init_contains {rt : Rt n} (hv : rt.Valid) {sched : Sched} {s s1 : Scatter n}
    (h : s.init rt sched = .ok s1) {x : Pt n}
    (hx : x ∈ Scatter.seedPoints s.problem ∨ x ∈ s.customPoints) : x ∈ s1.refSet := by
  obtain ⟨_, _, _, _, _, _, _, _, _, _, hset, _, _, _⟩ := Scatter.init_ok hv h
  rw [hset.mem_iff]
  rcases hx with h | h <;> simp [h]

theorem mem_zip_of_mem {s1 : Scatter n} (hl : s1.refObjs.length = s1.refSet.length) {x : Pt n}
    (hx : x ∈ s1.refSet) : ∃ v, (x, v) ∈ s1.refSet.zip s1.refObjs := by
  obtain ⟨i, hi⟩ := List.getElem?_of_mem hx
  have hi' := (List.getElem?_eq_some_iff.1 hi).1
  have ho : s1.refObjs[i]? = some (s1.refObjs[i]'(by omega)) := List.getElem?_eq_getElem _
  exact ⟨_, List.mem_of_getElem? (List.getElem?_zip_eq_some.2 ⟨hi, ho⟩)⟩

/-- C18: the returned start point is a point of the returned set with minimal objective, and it is no
worse than any point evaluated while initialising (seed points, custom points and samples). -/
theorem C18_best (rt : Rt n) (hv : rt.Valid) (sched : Sched) (s : Scatter n)
    (r : Scatter.Result n) (h : s.run rt sched = .ok r) (hpos : 0 < s.params.populationSize) :
    ∃ v, (r.best, v) ∈ r.ref ∧ (∀ x w, (x, w) ∈ r.ref → F64.tle v w = true) ∧
      (∃ s1, s.init rt sched = .ok s1 ∧
        ∀ x ∈ s1.refSet, ∃ w, s.problem.objective x = .ok w ∧ F64.tle v w = true) ∧
      ∀ x ∈ offered s, satisfies s.problem x → ∃ w, s.problem.objective x = .ok w ∧ F64.tle v w = true := by
  obtain ⟨s1, s2, s3, trials, h1, h2, h3, h4, h5, _⟩ := Scatter.run_ok h
  obtain ⟨hlen, hobj⟩ := init_length hv h1
  have e2 := (Scatter.trialPoints_parts h2).1
  obtain ⟨k, _, _, _, _, _, _, e1, _, _, _, _, hov, _⟩ := Scatter.init_ok hv h1
  have hpp : s2.params = s.params := by rw [e2, e1]
  have hset : s2.refSet = s1.refSet := by rw [e2]
  have hobs : s2.refObjs = s1.refObjs := by rw [e2]
  have hl : s3.refObjs.length = s3.refSet.length := by
    rcases Scatter.update_ok hv h3 with ⟨rfl, _⟩ | ⟨_, _, ha, hb, _⟩
    · rw [hset, hobs]; exact hobj
    · rw [ha, hb]
  obtain ⟨v, hv', hmin⟩ := Scatter.best_ok h4 hl
  rw [← h5] at hv'
  have hinit : ∀ x ∈ s1.refSet, ∃ w, s.problem.objective x = .ok w ∧ F64.tle v w = true := by
    intro x hx
    obtain ⟨w, hw⟩ := mem_zip_of_mem hobj hx
    refine ⟨w, hov x w hw, ?_⟩
    obtain ⟨u, hu, huw⟩ := C19_best rt hv sched s2 s3 trials h3 (by rw [hset, hobs]; exact hobj)
      (by rw [hpp]; exact hpos) w (by rw [hobs]; exact (List.of_mem_zip hw).2)
    have := hmin u hu
    rw [tle_iff] at *; omega
  refine ⟨v, hv', ?_, ⟨s1, h1, hinit⟩, fun x hx hs => hinit x (init_contains hv h1 (mem_starters.2 ⟨hx, hs⟩))⟩
  intro x w hxw
  rw [h5] at hxw
  exact hmin w (List.of_mem_zip hxw).2

/-- C20: every custom point that satisfies the constraints is evaluated in stage 1, and if it is missing
from the returned set, that set has `population_size` points, all with objectives not worse. -/
theorem C20_custom (rt : Rt n) (hv : rt.Valid) (sched : Sched) (s : Scatter n)
    (r : Scatter.Result n) (h : s.run rt sched = .ok r) (l : List (Pt n)) (hc : s.custom = some l)
    (x : Pt n) (hx : x ∈ l) (hs : satisfies s.problem x) :
    ∃ v, s.problem.objective x = .ok v ∧ ((x, v) ∈ r.ref ∨
      (r.ref.length = s.params.populationSize ∧ ∀ y w, (y, w) ∈ r.ref → F64.tle w v = true)) := by
  have hcp : x ∈ s.customPoints := by
    unfold Scatter.customPoints
    rw [hc]
    dsimp only
    split
    · exact hx
    · exact List.mem_filter.2 ⟨hx, isFeasible_iff.2 hs⟩
  obtain ⟨s1, s2, s3, trials, h1, h2, h3, h4, h5, _⟩ := Scatter.run_ok h
  obtain ⟨hlen, hobj⟩ := init_length hv h1
  have e2 := (Scatter.trialPoints_parts h2).1
  obtain ⟨k, _, _, _, _, _, _, e1, _, _, _, _, hov, _⟩ := Scatter.init_ok hv h1
  have hpp : s2.params = s.params := by rw [e2, e1]
  obtain ⟨v, hvz⟩ := mem_zip_of_mem hobj (init_contains hv h1 (Or.inr hcp))
  refine ⟨v, hov x v hvz, ?_⟩
  have hset : s2.refSet = s1.refSet := by rw [e2]
  have hobs : s2.refObjs = s1.refObjs := by rw [e2]
  rcases Scatter.update_ok hv h3 with ⟨rfl, _⟩ | ⟨_, _, ha, hb, disc, hperm, hle⟩
  · left; rw [h5, hset, hobs]; exact hvz
  · have hm : (x, v) ∈ s3.refSet.zip s3.refObjs ++ disc := by
      rw [hperm.mem_iff, hset, hobs]
      exact List.mem_append_left _ hvz
    rw [List.mem_append] at hm
    rcases hm with hm | hm
    · left; rw [h5]; exact hm
    · right
      refine ⟨by rw [h5, List.length_zip, ha, hb, Nat.min_self, hpp], ?_⟩
      intro y w hy
      rw [h5] at hy
      exact hle _ hy _ hm

/-! ### Examples and counterexamples -/

open Witness

/-- The bounds of the example problem are good ones. -/
example : GoodBounds lin := by
  constructor <;> intro i <;> (have hi : i = 0 := Subsingleton.elim _ _) <;> subst hi <;>
    decide +kernel

/-- A constrained run with custom points succeeds, drops an infeasible custom point and accepts a
trial point (hypotheses of C14-C20). -/
example : ∃ r, (scat linC (params 4 5 0) (some [pt (num 3), pt (num 2), pt (num 1), pt (num 3)])).run
    (rt 1) sched = .ok r ∧ (decide (r.ref.length = 5) && decide (r.initLen = 5) &&
      decide (r.best 0 = num 2) && r.ref.all (fun x => !decide (x.1 0 = num 1)) &&
      r.ref.any (fun x => decide (x.1 0 = F64.lit 9 4))) = true :=
  scatRes_some (by decide +kernel)

/-- Without accepted trial points the set keeps all seven seed and custom points although the
population size is five. -/
example : ∃ r, (scat lin (params 4 5 0) (some [pt (num 3), pt (num 2), pt (num 1), pt (num 3)])).run
    (rt 1) sched = .ok r ∧ decide (r.ref.length = 7) = true :=
  scatRes_some (by decide +kernel)

/-- Bounds `[2^1023, f64::MAX]`: finite, ordered, of finite width. -/
def huge : Problem 1 :=
  ⟨fun p => .ok (p 0), pt ⟨false, 2046 * 2 ^ 52, by decide⟩, pt F64.maxFinite, []⟩

/-- C14 is violated when the sum of the bounds overflows: the midpoint seed is infinite, hence outside
the bounds, and stays in the returned reference set. -/
theorem C14_midpoint_overflow :
    (∀ i, (huge.lower i).isFinite = true ∧ (huge.upper i).isFinite = true ∧
      F64.lt (huge.lower i) (huge.upper i) = true ∧
      ((huge.upper i).sub (huge.lower i)).isFinite = true) ∧
    ∃ r, (scat huge (params 4 5 0) none).run (rt 1) sched = .ok r ∧
      (r.ref.any fun x => decide (x.1 0 = F64.inf)) = true := by
  refine ⟨fun i => ?_, scatRes_some (by decide +kernel)⟩
  have hi : i = 0 := Subsingleton.elim _ _
  subst hi
  decide +kernel

end GS.Props
