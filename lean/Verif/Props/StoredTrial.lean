/- C112: what becomes of a point stored with `ScatterSearch::store_trial`. -/
import Verif.Props.Diversify

namespace GS.Props
open GS F64 GS.Witness
variable {n : Nat}

/-- States a caller of the public steps of `ScatterSearch` can reach without `store_trial`. -/
inductive Stepped (rt : Rt n) (sched : Sched) : Scatter n → Prop
  | init {s s' : Scatter n} : s.init rt sched = .ok s' → Stepped rt sched s'
  | trials {s s' : Scatter n} {l : List (Pt n)} : Stepped rt sched s → s.trialPoints rt = some (s', l) →
      Stepped rt sched s'
  | update {s s' : Scatter n} {l : List (Pt n)} : Stepped rt sched s → s.update rt sched l = some s' →
      Stepped rt sched s'

theorem Stepped.lengths {rt : Rt n} {sched : Sched} {s : Scatter n} (h : Stepped rt sched s) :
    s.refObjs.length = s.refSet.length := by
  induction h with
  | init h =>
    unfold Scatter.init at h
    split at h
    · cases h
    · split at h
      · cases h
      · cases h
        simp
  | trials _ h ih =>
    unfold Scatter.trialPoints at h
    dsimp only at h
    obtain ⟨l, _, h⟩ := Option.map_eq_some_iff.1 h
    cases h
    exact ih
  | update _ h ih =>
    unfold Scatter.update at h
    split at h
    · cases h; exact ih
    · dsimp only at h
      split at h
      · cases h; exact ih
      · obtain ⟨l, _, h⟩ := Option.map_eq_some_iff.1 h
        cases h
        simp

theorem best_index {sched : Sched} {s : Scatter n} {v : F64} {i : Nat}
    (h : (if s.parallel = true then sched.minBy.reduce (reduceSeq (minOp Prod.fst)) (optOp (minOp Prod.fst))
      s.refObjs.zipIdx else reduceSeq (minOp Prod.fst) s.refObjs.zipIdx) = some (v, i)) : i < s.refObjs.length := by
  have hred : (if s.parallel = true then sched.minBy.reduce (reduceSeq (minOp Prod.fst))
      (optOp (minOp Prod.fst)) s.refObjs.zipIdx else reduceSeq (minOp Prod.fst) s.refObjs.zipIdx) =
      reduceSeq (minOp Prod.fst) s.refObjs.zipIdx := by
    split
    · exact split_reduce_eq (minOp_assoc Prod.fst) _ _
    · rfl
  rw [hred] at h
  obtain ⟨j, hj, _, _⟩ := reduceSeq_min Prod.fst h
  rw [List.getElem?_zipIdx] at hj
  cases hd : s.refObjs[j]? with
  | none => rw [hd] at hj; cases hj
  | some d =>
    rw [hd] at hj
    simp only [Option.map_some, Option.some.injEq, Prod.mk.injEq] at hj
    have := (List.getElem?_eq_some_iff.1 hd).1
    omega

/-- A stored trial never becomes the best solution, however good it is: `best_solution` gives the same as
before. -/
theorem C112_best_violated {rt : Rt n} {sched : Sched} {s : Scatter n} (h : Stepped rt sched s) (p : Pt n) :
    (s.storeTrial p).best sched = s.best sched := by
  unfold Scatter.best
  rw [show (s.storeTrial p).refObjs = s.refObjs from rfl, show (s.storeTrial p).parallel = s.parallel from rfl]
  dsimp only
  split
  · rfl
  · rename_i v i hr
    have hi := best_index hr
    rw [show (s.storeTrial p).refSet = s.refSet ++ [p] from rfl,
      List.getElem?_append_left (by rw [← h.lengths]; exact hi)]

theorem retry_store (rt : Rt n) (p : Pt n) : ∀ (left : Nat) (s : Scatter n) (cand : List (Pt n)),
    Scatter.retry rt left (s.storeTrial p) cand =
      (Scatter.retry rt left s cand).map fun r => (r.1.storeTrial p, r.2) := by
  intro left
  induction left with
  | zero => intro s cand; rfl
  | succ k ih =>
    intro s cand
    unfold Scatter.retry
    rw [show (s.storeTrial p).params = s.params from rfl, show (s.storeTrial p).problem = s.problem from rfl]
    have hs : (s.storeTrial p).samples rt (s.params.populationSize * 2) =
        (s.samples rt (s.params.populationSize * 2)).map fun r => (r.1.storeTrial p, r.2) := by
      unfold Scatter.samples
      rw [Option.map_map]
      rfl
    rw [hs]
    split
    · cases s.samples rt (s.params.populationSize * 2) with
      | none => rfl
      | some r => exact ih r.1 _
    · rfl

theorem candidates_store (rt : Rt n) (s : Scatter n) (p : Pt n) (k : Nat) :
    (s.storeTrial p).candidates rt k = (s.candidates rt k).map fun r => (r.1.storeTrial p, r.2) := by
  unfold Scatter.candidates
  rw [show (s.storeTrial p).params = s.params from rfl, show (s.storeTrial p).problem = s.problem from rfl]
  have hs : (s.storeTrial p).samples rt s.params.populationSize =
      (s.samples rt s.params.populationSize).map fun r => (r.1.storeTrial p, r.2) := by
    unfold Scatter.samples
    rw [Option.map_map]
    rfl
  rw [hs]
  cases s.samples rt s.params.populationSize with
  | none => rfl
  | some r =>
    obtain ⟨s1, cand⟩ := r
    simp only [Option.map_some, retry_store]
    split
    · rfl
    · cases Scatter.retry rt 10 s1 (cand.filter (Scatter.isFeasible s.problem.constraints)) with
      | none => rfl
      | some r =>
        obtain ⟨s2, cand2, att⟩ := r
        simp only [Option.map_some]
        (repeat' split) <;> rfl

theorem init_store (rt : Rt n) (sched : Sched) (s : Scatter n) (p : Pt n) :
    (s.storeTrial p).init rt sched = s.init rt sched := by
  unfold Scatter.init Scatter.diversify
  rw [candidates_store, show (s.storeTrial p).problem = s.problem from rfl,
    show (s.storeTrial p).customPoints = s.customPoints from rfl,
    show (s.storeTrial p).parallel = s.parallel from rfl, show (s.storeTrial p).params = s.params from rfl]
  cases s.candidates rt (Scatter.seedPoints s.problem ++ s.customPoints).length with
  | error e => rfl
  | ok r =>
    obtain ⟨s1, cand⟩ := r
    simp only [Except.map]
    cases Scatter.divLoop s.parallel sched _ 0 _ cand _ with
    | error e => rfl
    | ok ref =>
      dsimp only
      cases Scatter.evalInit s.parallel sched.evals s.problem ref <;> rfl

/-- Running the search, or initialising the reference set again, discards stored trials. -/
theorem C112_run_violated (rt : Rt n) (sched : Sched) (s : Scatter n) (p : Pt n) :
    (s.storeTrial p).init rt sched = s.init rt sched ∧ (s.storeTrial p).run rt sched = s.run rt sched := by
  refine ⟨init_store rt sched s p, ?_⟩
  unfold Scatter.run
  rw [init_store]

theorem kOf_succ_le {k : Nat} (h2 : 2 ≤ k) (h : k + 1 < 2 ^ 52) : Scatter.kOf (k + 1) ≤ k := by
  rw [kOf_eq h]
  refine (Nat.min_le_left _ _).trans (Nat.max_le.2 ⟨?_, h2⟩)
  have : Nat.sqrt (k + 1) < k + 1 := Nat.sqrt_lt_self (by omega)
  omega

/-- No stored trial is combined with other points: the trial points generated next are the same whichever
point was stored. -/
theorem C112_combined_violated (rt : Rt n) (s : Scatter n) (h2 : 2 ≤ s.refSet.length)
    (hb : s.refSet.length + 1 < 2 ^ 52) (p q : Pt n) :
    ((s.storeTrial p).trialPoints rt).map Prod.snd = ((s.storeTrial q).trialPoints rt).map Prod.snd := by
  have hk := kOf_succ_le h2 hb
  have hl : ∀ x, (s.storeTrial x).refSet.length = s.refSet.length + 1 := fun x => by
    show (s.refSet ++ [x]).length = _
    simp
  unfold Scatter.trialPoints
  dsimp only
  rw [hl, hl, Option.map_map, Option.map_map]
  rw [show Scatter.seeds rt (s.storeTrial p) = Scatter.seeds rt s from rfl,
    show Scatter.seeds rt (s.storeTrial q) = Scatter.seeds rt s from rfl]
  have hparts : ∀ x, ((Scatter.pairs (Scatter.kOf (s.refSet.length + 1))).zip
      (s.seeds rt (Scatter.pairs (Scatter.kOf (s.refSet.length + 1))).length)).map (fun y =>
        match (s.storeTrial x).refSet[y.1.1]?, (s.storeTrial x).refSet[y.1.2]? with
        | some a, some b => Scatter.combine rt (s.storeTrial x).problem a b y.2
        | _, _ => none) =
      ((Scatter.pairs (Scatter.kOf (s.refSet.length + 1))).zip
      (s.seeds rt (Scatter.pairs (Scatter.kOf (s.refSet.length + 1))).length)).map (fun ((i, j), sd) =>
        match s.refSet[i]?, s.refSet[j]? with
        | some a, some b => Scatter.combine rt s.problem a b sd
        | _, _ => none) := by
    intro x
    apply List.map_congr_left
    rintro ⟨⟨i, j⟩, sd⟩ hm
    obtain ⟨h3, h4⟩ := Scatter.mem_pairs.1 (List.of_mem_zip hm).1
    have e : ∀ t, t < Scatter.kOf (s.refSet.length + 1) → (s.storeTrial x).refSet[t]? = s.refSet[t]? := by
      intro t ht
      show (s.refSet ++ [x])[t]? = _
      exact List.getElem?_append_left (by omega)
    dsimp only
    rw [e i (by omega), e j h4]
    rfl
  exact congrArg (fun l => (optAll l).map List.flatten) ((hparts p).trans (hparts q).symm)

/-- A stored trial is lost with the next change of the reference set: whatever is in the set then was in it
before the trial was stored, or is one of the new trial points. -/
theorem C112_update_violated {rt : Rt n} (hv : rt.Valid) {sched : Sched} {s s' : Scatter n}
    (h : Stepped rt sched s) {p : Pt n} {trials : List (Pt n)}
    (hu : (s.storeTrial p).update rt sched trials = some s') :
    s' = s.storeTrial p ∨ ∀ x ∈ s'.refSet, x ∈ s.refSet ∨ x ∈ trials := by
  rcases Scatter.update_ok hv hu with ⟨h1, _⟩ | ⟨_, _, hl, hl', disc, hperm, _⟩
  · exact Or.inl h1
  · right
    intro x hx
    obtain ⟨i, hi⟩ := List.getElem?_of_mem hx
    have hi' := (List.getElem?_eq_some_iff.1 hi).1
    obtain ⟨v, hv'⟩ : ∃ v, s'.refObjs[i]? = some v := ⟨_, List.getElem?_eq_getElem (by omega)⟩
    have hz : (x, v) ∈ s'.refSet.zip s'.refObjs :=
      List.mem_of_getElem? (List.getElem?_zip_eq_some.2 ⟨hi, hv'⟩)
    have hz2 := hperm.mem_iff.1 (List.mem_append_left _ hz)
    rcases List.mem_append.1 hz2 with h3 | h3
    · left
      have : (s.storeTrial p).refSet.zip (s.storeTrial p).refObjs = s.refSet.zip s.refObjs := by
        show (s.refSet ++ [p]).zip s.refObjs = _
        have := List.zip_append (l₁ := s.refSet) (r₁ := [p]) (l₂ := s.refObjs) (r₂ := []) h.lengths.symm
        rw [List.append_nil] at this
        rw [this]; simp
      rw [this] at h3
      exact (List.of_mem_zip h3).1
    · right
      unfold Scatter.acceptedTrials at h3
      obtain ⟨y, hy, he⟩ := List.mem_filterMap.1 h3
      unfold Scatter.evalTrial at he
      (repeat' split at he) <;> cases he
      exact hy

/-- Part of C112: until then the stored trial is the last member of the reference set.  Missing: that it takes
part in the search, see the other theorems. -/
theorem C112_stored_partial (s : Scatter n) (p : Pt n) : (s.storeTrial p).refSet = s.refSet ++ [p] ∧
    (s.storeTrial p).refObjs = s.refObjs := ⟨rfl, rfl⟩

/-- A reference set on `[1, 4]`, obtained from the public steps. -/
example : ∃ s : Scatter 1, Stepped (rt 1) sched s ∧ s.refSet.length = 6 := by
  have h : (((scat lin (params 4 6 0) none).init (rt 1) sched).toOption.map fun s => s.refSet.length) = some 6 := by
    decide +kernel
  obtain ⟨s, hs, hl⟩ := Option.map_eq_some_iff.1 h
  refine ⟨s, .init (s := scat lin (params 4 6 0) none) ?_, hl⟩
  cases hi : (scat lin (params 4 6 0) none).init (rt 1) sched with
  | error e => rw [hi] at hs; cases hs
  | ok s' => rw [hi] at hs; cases hs; rfl

end GS.Props
