/- C21-C23: diversification, constraint sampling and trial point generation. -/
import Verif.Lemmas.MinDist
import Verif.Props.Scatter
import Mathlib.Algebra.BigOperators.Intervals

namespace GS.Props
open GS F64
variable {n : Nat}

/-! ### C21 -/

/-- Greedy selection: repeatedly move to the reference set a candidate whose smallest distance to the
current set is maximal with respect to `R` ("the other candidate's distance is not larger"). -/
inductive Greedy (R : F64 → F64 → Prop) :
    List (Pt n) → List (Pt n) → Nat → List (Pt n) → Prop
  | done (ref cand : List (Pt n)) : Greedy R ref cand 0 ref
  | step (ref cand cand' : List (Pt n)) (k : Nat) (res : List (Pt n)) (far : Pt n) :
    (far :: cand').Perm cand →
    (∀ c ∈ cand, ∀ vc vf, IsMinDist c ref vc → IsMinDist far ref vf → R vc vf) →
    Greedy R (ref ++ [far]) cand' k res → Greedy R ref cand (k + 1) res

/-- A cached distance: the true smallest distance, or (sequential code only) zero for a candidate
closer than the cut-off to the reference set. -/
def Cached (par : Bool) (c : Pt n) (ref : List (Pt n)) (d : F64) : Prop :=
  IsMinDist c ref d ∨
    (par = false ∧ d = F64.zero ∧ ∃ q ∈ ref, F64.lt (dist2 c q) Scatter.eps = true)

/-- "Not larger", up to the cut-off of the sequential code. -/
def notLarger (par : Bool) (vc vf : F64) : Prop :=
  F64.le vc vf = true ∨ (par = false ∧ F64.lt vc Scatter.eps = true)

theorem dist2_not_lt_zero (a b : Pt n) : F64.lt (dist2 a b) F64.zero = false := by
  have hn := (nice_dist2 a b).1
  rw [Bool.eq_false_iff, ne_eq, lt_iff]
  rintro ⟨_, _, hk⟩
  unfold F64.key at hk
  rw [hn] at hk
  simp [F64.zero] at hk
  omega

theorem cached_upd {par : Bool} {c far : Pt n} {ref : List (Pt n)} {d : F64}
    (h : Cached par c ref d) :
    Cached par c (ref ++ [far]) (if F64.lt (dist2 c far) d then dist2 c far else d) := by
  rcases h with h | ⟨h1, rfl, q, hq, h2⟩
  · left
    have := isMin_upd (dist2 c far) h
    unfold IsMinDist
    rw [List.map_append]; exact this
  · right
    rw [dist2_not_lt_zero]
    exact ⟨h1, rfl, q, List.mem_append_left _ hq, h2⟩

theorem minDist_nonneg {c : Pt n} {ref : List (Pt n)} {v : F64} (h : IsMinDist c ref v) :
    v.neg = false := by
  rcases h.2.2 with h | h
  · subst h; rfl
  · rw [List.mem_map] at h
    obtain ⟨q, _, rfl⟩ := h
    exact (nice_dist2 c q).1

theorem cached_max {par : Bool} {c far : Pt n} {ref : List (Pt n)} {d m vc vf : F64}
    (hc : Cached par c ref d) (hf : Cached par far ref m) (hmax : d.tkey ≤ m.tkey)
    (h1 : IsMinDist c ref vc) (h2 : IsMinDist far ref vf) : notLarger par vc vf := by
  have hmf : m.key ≤ vf.key := by
    rcases hf with hf | ⟨_, rfl, _⟩
    · exact (isMin_key hf h2).le
    · have := minDist_nonneg h2
      unfold F64.key
      rw [this]
      simp [F64.zero]
  rcases hc with hc | ⟨hp, _, q, hq, hlt⟩
  · left
    rw [le_iff]
    refine ⟨h1.1, h2.1, ?_⟩
    have := isMin_key hc h1
    have := key_le_of_tkey_le hmax
    omega
  · right
    refine ⟨hp, ?_⟩
    have hnot := h1.2.1 (dist2 c q) (List.mem_map_of_mem hq)
    have hl := lt_iff.1 hlt
    rw [Bool.eq_false_iff, ne_eq, lt_iff] at hnot
    rw [lt_iff]
    refine ⟨h1.1, hl.2.1, ?_⟩
    by_contra hcon
    exact hnot ⟨hl.1, h1.1, by omega⟩

theorem divLoop_greedy {par : Bool} {sched : Sched} {fuel round : Nat} {ref ref' : List (Pt n)}
    (Z : List (Pt n × F64)) (hZ : ∀ z ∈ Z, Cached par z.1 ref z.2)
    (h : Scatter.divLoop par sched fuel round ref (Z.map Prod.fst) (Z.map Prod.snd) = .ok ref') :
    Greedy (notLarger par) ref (Z.map Prod.fst) fuel ref' := by
  induction fuel generalizing round ref Z with
  | zero => cases h; exact .done _ _
  | succ fuel ih =>
    unfold Scatter.divLoop at h
    split at h
    · cases h
    · rename_i i hi
      split at h
      · cases h
      · rename_i far hfar
        obtain ⟨d, hd, hmax⟩ := Scatter.argmax_lt hi
        dsimp only at h
        rw [swapRemove_map, swapRemove_map, List.zipWith_map, List.zipWith_self] at h
        have hzi : Z[i]? = some (far, d) := by
          rw [List.getElem?_map] at hfar hd
          cases hz : Z[i]? with
          | none => rw [hz] at hfar; cases hfar
          | some z =>
            rw [hz] at hfar hd
            obtain ⟨a, b⟩ := z
            cases hfar
            cases hd
            rfl
        have hperm := swapRemove_perm Z i _ hzi
        have e : swapRemove (Z.map Prod.fst) i =
            ((swapRemove Z i).map fun z => (z.1, if F64.lt (dist2 z.1 far) z.2 then dist2 z.1 far
              else z.2)).map Prod.fst := by
          rw [swapRemove_map, List.map_map]; rfl
        refine .step ref _ (swapRemove (Z.map Prod.fst) i) fuel ref' far
          (swapRemove_perm _ _ _ hfar) ?_ ?_
        · intro c hc vc vf h1 h2
          rw [List.mem_map] at hc
          obtain ⟨z, hz, rfl⟩ := hc
          exact cached_max (hZ z hz) (hZ (far, d) (List.mem_of_getElem? hzi))
            (hmax z.2 (List.mem_map_of_mem hz)) h1 h2
        · rw [e]
          refine ih (round := round + 1) _ ?_ ?_
          · intro z hz
            rw [List.mem_map] at hz
            obtain ⟨z', hz', rfl⟩ := hz
            exact cached_upd (hZ z' (hperm.mem_iff.1 (List.mem_cons_of_mem _ hz')))
          · rw [List.map_map, List.map_map]
            exact h

theorem initial_cached (par : Bool) (sp : Split) (c : Pt n) (ref : List (Pt n)) :
    Cached par c ref (Scatter.minDistance par sp c ref) := by
  unfold Scatter.minDistance
  cases par with
  | true => exact Or.inl (Scatter.minDistPar_isMin sp c ref)
  | false =>
    rcases Scatter.minDistSeq_cases c ref [] F64.inf isMin_nil with h | ⟨h1, h2⟩
    · exact Or.inl (by simpa using h)
    · exact Or.inr ⟨rfl, by simpa using h1, h2⟩

/-- C21 (partial for the sequential code, which treats squared distances below `1e-14` as zero, see
`C21_sequential_not_greedy`): diversification is greedy max-min selection among the sampled
candidates, up to exactly `population_size` points. -/
theorem C21_greedy_partial (rt : Rt n) (sched : Sched) (s s1 : Scatter n) (ref ref' : List (Pt n))
    (h : s.diversify rt sched ref = .ok (s1, ref')) :
    ∃ cand, s.candidates rt ref.length = .ok (s1, cand) ∧
      Greedy (notLarger s.parallel) ref cand (s.params.populationSize - ref.length) ref' := by
  unfold Scatter.diversify at h
  split at h
  · cases h
  · rename_i s0 cand hc
    dsimp only at h
    split at h
    · cases h
    · rename_i r hl
      cases h
      refine ⟨cand, hc, ?_⟩
      have e1 : (cand.zipIdx.map fun z : Pt n × Nat =>
          (z.1, Scatter.minDistance s.parallel (sched.minDist z.2) z.1 ref)).map Prod.fst = cand := by
        rw [List.map_map]
        show List.map Prod.fst _ = _
        rw [List.zipIdx_map_fst]
      have := divLoop_greedy (par := s.parallel) (sched := sched) (round := 0) (ref := ref)
        (ref' := ref') (fuel := s.params.populationSize - ref.length)
        (cand.zipIdx.map fun z => (z.1, Scatter.minDistance s.parallel (sched.minDist z.2) z.1 ref))
        (by
          intro z hz
          rw [List.mem_map] at hz
          obtain ⟨z', _, rfl⟩ := hz
          exact initial_cached _ _ _ _)
        (by
          rw [e1, List.map_map]
          exact hl)
      rwa [e1] at this

theorem Greedy.weaken {R R' : F64 → F64 → Prop} (hR : ∀ a b, R a b → R' a b)
    {ref cand res : List (Pt n)} {k : Nat} (h : Greedy R ref cand k res) : Greedy R' ref cand k res := by
  induction h with
  | done => exact .done _ _
  | step ref cand cand' k res far hp hm _ ih =>
    exact .step _ _ _ _ _ _ hp (fun c hc vc vf h1 h2 => hR _ _ (hm c hc vc vf h1 h2)) ih

/-- C21, parallel code (the default): each added point has exactly the maximal smallest distance. -/
theorem C21_greedy_parallel (rt : Rt n) (sched : Sched) (s s1 : Scatter n) (hpar : s.parallel = true)
    (ref ref' : List (Pt n)) (h : s.diversify rt sched ref = .ok (s1, ref')) :
    ∃ cand, s.candidates rt ref.length = .ok (s1, cand) ∧
      Greedy (fun vc vf => F64.le vc vf = true) ref cand (s.params.populationSize - ref.length) ref' := by
  obtain ⟨cand, h1, h2⟩ := C21_greedy_partial rt sched s s1 ref ref' h
  refine ⟨cand, h1, h2.weaken ?_⟩
  intro a b hab
  rcases hab with h | ⟨h, _⟩
  · exact h
  · rw [hpar] at h; cases h

/-- C21: no candidate is used twice and the result has exactly the requested number of points. -/
theorem C21_each_once {R : F64 → F64 → Prop} {ref cand res : List (Pt n)} {k : Nat}
    (h : Greedy R ref cand k res) :
    ∃ added rest, res = ref ++ added ∧ added.length = k ∧ (added ++ rest).Perm cand := by
  induction h with
  | done ref cand => exact ⟨[], cand, by simp, rfl, List.Perm.refl _⟩
  | step ref cand cand' k res far hp _ _ ih =>
    obtain ⟨added, rest, h1, h2, h3⟩ := ih
    exact ⟨far :: added, rest, by rw [h1]; simp, by simp [h2], (h3.cons far).trans hp⟩

/-- C21: the reference set has `population_size` points afterwards (or keeps its larger size). -/
theorem C21_size (rt : Rt n) (sched : Sched) (s s1 : Scatter n) (ref ref' : List (Pt n))
    (h : s.diversify rt sched ref = .ok (s1, ref')) :
    ref'.length = Nat.max s.params.populationSize ref.length := by
  obtain ⟨cand, _, hg⟩ := C21_greedy_partial rt sched s s1 ref ref' h
  obtain ⟨added, _, rfl, hl, _⟩ := C21_each_once hg
  rw [List.length_append, hl, max_sub]

/-- C21: the selection loop fails with `NoCandidates` exactly when the candidates run out. -/
theorem C21_no_candidates (par : Bool) (sched : Sched) (k round : Nat) (ref cand : List (Pt n))
    (dists : List F64) (hl : dists.length = cand.length) :
    Scatter.divLoop par sched k round ref cand dists = .error .noCandidates ↔ cand.length < k := by
  have := @Scatter.divLoop_total n par sched k round ref cand dists hl
  constructor
  · intro h
    by_contra hc
    obtain ⟨r, hr⟩ := this.1 (by omega)
    rw [hr] at h; cases h
  · exact this.2

/-! ### C22 -/

/-- The first `k` samples of the generator stream of `s`. -/
def drawn (rt : Rt n) (s : Scatter n) (k : Nat) : List (Option (Pt n)) :=
  (List.range k).map fun i => Scatter.sample rt s.problem (rt.draw s.params.seed (s.rngPos + i))

/-- Number of feasible points among the first `k` samples. -/
def feasibleAmong (rt : Rt n) (s : Scatter n) (k : Nat) : Nat :=
  (drawn rt s k).countP fun x => match x with
    | some p => decide (satisfies s.problem p)
    | none => false

theorem samples_drawn {rt : Rt n} {s s' : Scatter n} {k : Nat} {D : List (Pt n)}
    (h : s.samples rt k = some (s', D)) : drawn rt s k = D.map some := by
  rw [← (Scatter.samples_ok h).2.2]
  unfold drawn Scatter.seeds
  rw [List.map_map]; rfl

theorem feasibleAmong_eq {rt : Rt n} {s s' : Scatter n} {k : Nat} {D : List (Pt n)}
    (h : s.samples rt k = some (s', D)) :
    feasibleAmong rt s k = (D.filter (Scatter.isFeasible s.problem.constraints)).length := by
  unfold feasibleAmong
  rw [isFeasible_eq, samples_drawn h, List.countP_map, List.countP_eq_length_filter]
  rfl

theorem feasibleAmong_mono (rt : Rt n) (s : Scatter n) {j k : Nat} (h : j ≤ k) :
    feasibleAmong rt s j ≤ feasibleAmong rt s k := by
  obtain ⟨d, rfl⟩ := Nat.exists_eq_add_of_le h
  unfold feasibleAmong drawn
  rw [List.range_add, List.map_append, List.countP_append]
  omega

theorem samples_total {rt : Rt n} {s : Scatter n}
    (ht : ∀ seed, (Scatter.sample rt s.problem seed).isSome = true) (k : Nat) :
    ∃ D, s.samples rt k = some ({ s with rngPos := s.rngPos + k }, D) := by
  have : ∀ l : List Nat, ∃ D, optAll (l.map (Scatter.sample rt s.problem)) = some D := by
    intro l
    induction l with
    | nil => exact ⟨[], rfl⟩
    | cons a l ih =>
      obtain ⟨D, hD⟩ := ih
      obtain ⟨x, hx⟩ := Option.isSome_iff_exists.1 (ht a)
      exact ⟨x :: D, by simp [optAll, hx, hD]⟩
  obtain ⟨D, hD⟩ := this (s.seeds rt k)
  exact ⟨D, by unfold Scatter.samples; rw [hD]; rfl⟩

/-- With the finite bounds required by `rand`, sampling never panics. -/
theorem sample_total {rt : Rt n} (hv : rt.Valid) {p : Problem n} (hp : GoodBounds p) (seed : Nat) :
    (Scatter.sample rt p seed).isSome = true := by
  obtain ⟨x, hx⟩ := seqPt_isSome (f := fun i : Fin n => rt.uniformIncl seed i.val (p.lower i) (p.upper i))
    (fun i => hv.uniformIncl_total _ _ _ _ (hp.ordered i) (hp.width i))
  unfold Scatter.sample
  rw [hx]; rfl

theorem retry_total {rt : Rt n} {left : Nat} (hl : left ≤ 10) {s : Scatter n}
    (ht : ∀ seed, (Scatter.sample rt s.problem seed).isSome = true) (s0 : Scatter n) (k : Nat)
    {D0 : List (Pt n)} (h0 : s0.samples rt k = some (s, D0)) :
    ∃ j ≤ left, ∃ s' D, s0.samples rt (k + j * (2 * s0.params.populationSize)) = some (s', D) ∧
      Scatter.retry rt left s (D0.filter (Scatter.isFeasible s0.problem.constraints)) =
        some (s', D.filter (Scatter.isFeasible s0.problem.constraints), 10 - left + j) ∧
      (j < left → s0.params.populationSize ≤
        feasibleAmong rt s0 (k + j * (2 * s0.params.populationSize))) ∧
      ∀ i < j, feasibleAmong rt s0 (k + i * (2 * s0.params.populationSize)) <
        s0.params.populationSize := by
  induction left generalizing s k D0 with
  | zero => exact ⟨0, le_rfl, s, D0, by simpa using h0, by simp [Scatter.retry], by simp, by simp⟩
  | succ left ih =>
    have e := (Scatter.samples_ok h0).1
    have hpp : s.params = s0.params := by rw [e]
    have hq : s.problem = s0.problem := by rw [e]
    have hf := feasibleAmong_eq h0
    by_cases hlt : feasibleAmong rt s0 k < s0.params.populationSize
    · obtain ⟨B, hB⟩ := samples_total ht (s.params.populationSize * 2)
      have hadd := Scatter.samples_add h0 hB
      rw [hpp] at hadd
      obtain ⟨j, hj, s', D, h1, h2, h3, h4⟩ := ih (by omega)
        (s := { s with rngPos := s.rngPos + s.params.populationSize * 2 }) ht _
        (by rw [hpp]; exact hadd)
      have hidx : ∀ i, k + s0.params.populationSize * 2 + i * (2 * s0.params.populationSize) =
          k + (i + 1) * (2 * s0.params.populationSize) := by intro i; ring
      rw [hidx] at h1 h3
      refine ⟨j + 1, by omega, s', D, h1, ?_, fun h => h3 (by omega), ?_⟩
      · unfold Scatter.retry
        rw [if_pos (by rw [hpp, ← hf]; exact hlt), hB]
        dsimp only
        rw [List.filter_append] at h2
        have hfe : Scatter.isFeasible s.problem.constraints =
            Scatter.isFeasible s0.problem.constraints := by rw [hq]
        rw [hfe, h2]
        congr 3
        omega
      · intro i hi
        cases i with
        | zero => simpa using hlt
        | succ i => have := h4 i (by omega); rwa [hidx] at this
    · refine ⟨0, by omega, s, D0, by simpa using h0, ?_, fun _ => by simpa using hlt, by simp⟩
      unfold Scatter.retry
      rw [if_neg (by rw [hpp, ← hf]; exact hlt)]
      simp

/-- C22: with constraints, batches are drawn until at least `population_size` feasible samples exist or
ten extra batches (of `2 * population_size`) are exhausted, i.e. never more than
`population_size + 20 * population_size` samples; the sampling then fails with `NoFeasibleCandidates`
exactly when no sample was feasible or reference points and feasible samples together are fewer than
`population_size`. -/
theorem C22_sampling (rt : Rt n) (s : Scatter n) (refLen : Nat)
    (ht : ∀ seed, (Scatter.sample rt s.problem seed).isSome = true)
    (hc : s.problem.constraints ≠ []) :
    ∃ j ≤ 10, ∃ N, N = s.params.populationSize + j * (2 * s.params.populationSize) ∧
      N ≤ s.params.populationSize + 20 * s.params.populationSize ∧
      (∀ i < j, feasibleAmong rt s (s.params.populationSize + i * (2 * s.params.populationSize)) <
        s.params.populationSize) ∧
      (j < 10 → s.params.populationSize ≤ feasibleAmong rt s N) ∧
      ((feasibleAmong rt s N = 0 ∨ refLen + feasibleAmong rt s N < s.params.populationSize) →
        s.candidates rt refLen = .error (.noFeasibleCandidates j n)) ∧
      (¬ (feasibleAmong rt s N = 0 ∨ refLen + feasibleAmong rt s N < s.params.populationSize) →
        ∃ cand, s.candidates rt refLen = .ok ({ s with rngPos := s.rngPos + N }, cand) ∧
          cand.map some = (drawn rt s N).filter fun x => match x with
            | some p => decide (satisfies s.problem p)
            | none => false) := by
  obtain ⟨D0, h0⟩ := samples_total ht s.params.populationSize
  obtain ⟨j, hj, s', D, h1, h2, h3, h4⟩ := retry_total (le_refl 10)
    (s := { s with rngPos := s.rngPos + s.params.populationSize }) ht s _ h0
  have hf := feasibleAmong_eq h1
  have he : s.problem.constraints.isEmpty = false := by
    cases hcc : s.problem.constraints with
    | nil => exact absurd hcc hc
    | cons => rfl
  refine ⟨j, hj, _, rfl, ?_, h4, h3, ?_, ?_⟩
  · have : j * (2 * s.params.populationSize) ≤ 10 * (2 * s.params.populationSize) :=
      Nat.mul_le_mul_right _ hj
    omega
  · intro hfail
    rw [hf] at hfail
    unfold Scatter.candidates
    rw [h0]
    dsimp only
    rw [he, h2]
    simp only [Bool.false_eq_true, if_false, Nat.sub_self, Nat.zero_add]
    split
    · rfl
    · rename_i hne
      rw [if_pos]
      rcases hfail with h | h
      · exact absurd (List.isEmpty_iff.2 (List.length_eq_zero_iff.1 h)) hne
      · exact h
  · intro hok
    rw [hf, not_or] at hok
    refine ⟨D.filter (Scatter.isFeasible s.problem.constraints), ?_, ?_⟩
    · unfold Scatter.candidates
      rw [h0]
      dsimp only
      rw [he, h2]
      simp only [Bool.false_eq_true, if_false]
      rw [if_neg, if_neg hok.2, (Scatter.samples_ok h1).1]
      intro hemp
      exact hok.1 (by rw [List.isEmpty_iff.1 hemp]; rfl)
    · rw [isFeasible_eq, samples_drawn h1, List.filter_map]
      rfl

/-- C22, seen from `ScatterSearch::run`: it reports `NoFeasibleCandidates` only if candidate sampling
does. -/
theorem C22_run_error (rt : Rt n) (sched : Sched) (s : Scatter n) (a d : Nat)
    (h : s.run rt sched = .error (.noFeasibleCandidates a d)) :
    s.candidates rt (starters s).length = .error (.noFeasibleCandidates a d) := by
  rw [← starters_eq]
  have hdl : ∀ (k round : Nat) (ref cand : List (Pt n)) (ds : List F64),
      Scatter.divLoop s.parallel sched k round ref cand ds ≠ .error (.noFeasibleCandidates a d) := by
    intro k
    induction k with
    | zero => intro round ref cand ds h; cases h
    | succ k ih =>
      intro round ref cand ds h
      unfold Scatter.divLoop at h
      split at h
      · cases h
      · split at h
        · cases h
        · exact ih _ _ _ _ h
  have hev : ∀ l : List (Pt n), Scatter.evalAll s.problem l ≠ .error (.noFeasibleCandidates a d) := by
    intro l
    induction l with
    | nil => intro h; cases h
    | cons x l ih =>
      intro h
      unfold Scatter.evalAll at h
      split at h
      · cases h
      · split at h
        · rename_i e he
          injection h with h
          subst h
          exact ih he
        · cases h
  have hev : ∀ l : List (Pt n), Scatter.evalInit s.parallel sched.evals s.problem l ≠
      .error (.noFeasibleCandidates a d) := by
    intro l h
    rcases Scatter.evalInit_cases s.parallel sched.evals s.problem l with k | ⟨_, x, _, e, _, k⟩
    · exact hev l (k.symm.trans h)
    · rw [k] at h; cases h
  unfold Scatter.run at h
  split at h
  · rename_i e hi
    injection h with h
    subst h
    unfold Scatter.init at hi
    split at hi
    · rename_i e hd
      injection hi with hi
      subst hi
      unfold Scatter.diversify at hd
      split at hd
      · rename_i e hc
        injection hd with hd
        subst hd
        exact hc
      · dsimp only at hd
        split at hd
        · rename_i e hl
          injection hd with hd
          subst hd
          exact absurd hl (hdl _ _ _ _ _)
        · cases hd
    · split at hi
      · rename_i e he
        injection hi with hi
        subst hi
        exact absurd he (hev _)
      · cases hi
  · split at h
    · cases h
    · split at h
      · cases h
      · split at h
        · rename_i e hb
          injection h with h
          subst h
          unfold Scatter.best at hb
          dsimp only at hb
          split at hb
          · cases hb
          · split at hb <;> cases hb
        · cases h

/-- C22, converse: a sampling failure is reported by `ScatterSearch::run`. -/
theorem C22_run_reports (rt : Rt n) (sched : Sched) (s : Scatter n) (e : ScatterErr)
    (h : s.candidates rt (starters s).length = .error e) :
    s.run rt sched = .error e := by
  rw [← starters_eq] at h
  unfold Scatter.run Scatter.init Scatter.diversify
  rw [h]

/-! ### C23 -/

theorem filter_gt_length (k i : Nat) : ((List.range k).filter (i < ·)).length = k - 1 - i := by
  induction k with
  | zero => simp
  | succ k ih =>
    rw [List.range_succ, List.filter_append, List.length_append, ih]
    by_cases h : i < k
    · simp [h]; omega
    · simp [h]; try omega

theorem pairs_length (k : Nat) : (Scatter.pairs k).length = k * (k - 1) / 2 := by
  unfold Scatter.pairs
  rw [List.length_flatMap]
  simp only [List.length_map, filter_gt_length]
  have h : ∀ m, m ≤ k → 2 * ((List.range m).map fun i => k - 1 - i).sum + m * (m - 1) =
      2 * (m * (k - 1)) := by
    intro m
    induction m with
    | zero => simp
    | succ m ih =>
      intro hm
      have := ih (by omega)
      rw [List.range_succ, List.map_append, List.sum_append]
      simp only [List.map_cons, List.map_nil, List.sum_cons, List.sum_nil, Nat.add_zero,
        Nat.add_sub_cancel]
      obtain ⟨d, rfl⟩ : ∃ d, k = m + 1 + d := ⟨k - (m + 1), by omega⟩
      simp only [show m + 1 + d - 1 = m + d from by omega, show m + d - m = d from by omega] at this ⊢
      cases m with
      | zero => simp
      | succ m =>
        simp only [Nat.add_sub_cancel] at this
        nlinarith
  have hk := h k le_rfl
  have : 2 * (k * (k - 1)) = k * (k - 1) + k * (k - 1) := by ring
  omega

theorem pairs_nodup (k : Nat) : (Scatter.pairs k).Nodup := by
  unfold Scatter.pairs
  rw [List.nodup_flatMap]
  refine ⟨fun i _ => ?_, ?_⟩
  · refine List.Nodup.map (fun a b h => by simpa using h) (List.Nodup.filter _ List.nodup_range)
  · refine List.Pairwise.imp ?_ (List.nodup_range (n := k))
    intro a b hab
    simp only [Function.onFun, List.disjoint_left, List.mem_map]
    rintro ⟨x, y⟩ ⟨_, _, h1⟩ ⟨_, _, h2⟩
    cases h1
    cases h2
    exact hab rfl

theorem kOf_eq {len : Nat} (h : len < 2 ^ 52) :
    Scatter.kOf len = Nat.min (Nat.max (Nat.sqrt len) 2) len := by
  unfold Scatter.kOf
  rw [isqrt_def, F64.toUsize_sqrt_ofNat h]

/-- C23: six points per pair. -/
theorem C23_count (rt : Rt n) (s s' : Scatter n) (l : List (Pt n))
    (hsz : s.refSet.length < 2 ^ 52) (h : s.trialPoints rt = some (s', l)) :
    ∀ k, k = Nat.min (Nat.max (Nat.sqrt s.refSet.length) 2) s.refSet.length →
      l.length = 6 * (k * (k - 1) / 2) := by
  rintro k rfl
  obtain ⟨_, parts, rfl, hlen, hp⟩ := Scatter.trialPoints_parts h
  have hall : ∀ part ∈ parts, part.length = 6 := by
    intro part hpart
    obtain ⟨t, ht⟩ := List.getElem?_of_mem hpart
    have hlt : t < parts.length := (List.getElem?_eq_some_iff.1 ht).1
    obtain ⟨a, b, part', _, _, hpt, hc⟩ := hp t _ _
      (List.getElem?_eq_getElem (show t < (Scatter.pairs _).length by omega))
    rw [ht] at hpt
    injection hpt with hpt
    subst hpt
    exact (Scatter.combine_ok hc).1
  have hsum : ∀ P : List (List (Pt n)), (∀ part ∈ P, part.length = 6) →
      P.flatten.length = 6 * P.length := by
    intro P
    induction P with
    | nil => intro _; rfl
    | cons a P ih =>
      intro hP
      rw [List.flatten_cons, List.length_append, ih fun x hx => hP x (by simp [hx]), hP a (by simp),
        List.length_cons]
      omega
  rw [hsum parts hall, hlen, pairs_length, kOf_eq hsz]

/-- C23: the pairs are exactly the unordered pairs of the `k` first reference points, each once, and
the six points of a pair are made from these two points with the pair's own random number; exactly one
number per pair is drawn from the generator. -/
theorem C23_pairs (rt : Rt n) (s s' : Scatter n) (l : List (Pt n))
    (hsz : s.refSet.length < 2 ^ 52) (h : s.trialPoints rt = some (s', l)) (k : Nat)
    (hk : k = Nat.min (Nat.max (Nat.sqrt s.refSet.length) 2) s.refSet.length) :
    ∃ (P : List (Nat × Nat)) (parts : List (List (Pt n))),
      (∀ i j, (i, j) ∈ P ↔ i < j ∧ j < k) ∧ P.Nodup ∧ P.length = k * (k - 1) / 2 ∧
      parts.length = P.length ∧ l = parts.flatten ∧
      s' = { s with rngPos := s.rngPos + P.length } ∧
      ∀ (t i j : Nat), P[t]? = some (i, j) → ∃ a b part, s.refSet[i]? = some a ∧
        s.refSet[j]? = some b ∧ parts[t]? = some part ∧
        Scatter.combine rt s.problem a b (rt.draw s.params.seed (s.rngPos + t)) = some part := by
  rw [← kOf_eq hsz] at hk
  subst hk
  obtain ⟨e, parts, hl, hlen, hp⟩ := Scatter.trialPoints_parts h
  exact ⟨Scatter.pairs _, parts, fun i j => Scatter.mem_pairs, pairs_nodup _, pairs_length _, hlen, hl,
    e, hp⟩

/-- C23: generation never fails for good bounds and points of the right kind. -/
theorem C23_total (rt : Rt n) (hv : rt.Valid) (s : Scatter n) (hp : GoodBounds s.problem) :
    ∃ s' l, s.trialPoints rt = some (s', l) := by
  have hab : ∀ x : Pt n, ∃ y, Scatter.applyBounds s.problem x = some y := fun x =>
    seqPt_isSome fun i => by
      obtain ⟨y, hy⟩ := clamp_some (x := x i) (hp.ordered i)
      rw [hy]; rfl
  have hpert : ∀ (a b : Pt n) (sd r : Nat), ∃ y, Scatter.perturb rt s.problem a b sd r = some y := by
    intro a b sd r
    refine seqPt_isSome fun i => ?_
    rw [Option.isSome_map]
    exact hv.uniformExcl_total _ _ _ _ (by decide +kernel) (by decide +kernel)
  have hcomb : ∀ (a b : Pt n) (sd : Nat), ∃ l, Scatter.combine rt s.problem a b sd = some l := by
    intro a b sd
    unfold Scatter.combine Scatter.directions
    simp only [List.map_cons, List.map_nil, List.cons_append, List.nil_append]
    obtain ⟨y1, h1⟩ := hab (Scatter.lincomb a b (F64.lit 1 4))
    obtain ⟨y2, h2⟩ := hab (Scatter.lincomb a b (F64.lit 1 2))
    obtain ⟨y3, h3⟩ := hab (Scatter.lincomb a b (F64.lit 3 4))
    obtain ⟨y4, h4⟩ := hab (Scatter.lincomb a b (F64.lit 5 4))
    obtain ⟨z5, h5⟩ := hpert a b sd 0
    obtain ⟨z6, h6⟩ := hpert a b sd 1
    obtain ⟨y5, h5'⟩ := hab z5
    obtain ⟨y6, h6'⟩ := hab z6
    rw [h1, h2, h3, h4, h5, h6, Option.bind_some, Option.bind_some, h5', h6']
    exact ⟨_, rfl⟩
  have hall : ∀ L : List ((Nat × Nat) × Nat), (∀ z ∈ L, z.1.1 < s.refSet.length ∧ z.1.2 < s.refSet.length) →
      ∃ r, optAll (L.map fun z => match s.refSet[z.1.1]?, s.refSet[z.1.2]? with
        | some a, some b => Scatter.combine rt s.problem a b z.2
        | _, _ => none) = some r := by
    intro L
    induction L with
    | nil => intro _; exact ⟨[], rfl⟩
    | cons z L ih =>
      intro hz
      obtain ⟨r, hr⟩ := ih fun y hy => hz y (by simp [hy])
      obtain ⟨h1, h2⟩ := hz z (by simp)
      obtain ⟨c, hc⟩ := hcomb (s.refSet[z.1.1]'h1) (s.refSet[z.1.2]'h2) z.2
      rw [List.map_cons, List.getElem?_eq_getElem h1, List.getElem?_eq_getElem h2]
      dsimp only
      rw [hc]
      exact ⟨c :: r, by simp only [optAll, hr]; rfl⟩
  obtain ⟨r, hr⟩ := hall ((Scatter.pairs (Scatter.kOf s.refSet.length)).zip
    (s.seeds rt (Scatter.pairs (Scatter.kOf s.refSet.length)).length)) (by
      rintro ⟨⟨i, j⟩, sd⟩ hz
      have := (List.of_mem_zip hz).1
      rw [Scatter.mem_pairs] at this
      have hk := Scatter.kOf_le s.refSet.length
      constructor <;> dsimp only <;> omega)
  unfold Scatter.trialPoints
  dsimp only
  exact ⟨{ s with rngPos := s.rngPos + (Scatter.pairs (Scatter.kOf s.refSet.length)).length },
    r.flatten, Option.map_eq_some_iff.2 ⟨r, hr, rfl⟩⟩

/-- C23: the sequential and the parallel mode generate the same points and draw the same numbers. -/
theorem C23_mode (rt : Rt n) (s : Scatter n) (b : Bool) :
    (s.setParallel b).trialPoints rt = (s.trialPoints rt).map fun x => (x.1.setParallel b, x.2) := by
  unfold Scatter.trialPoints Scatter.setParallel Scatter.seeds
  dsimp only
  rw [Option.map_map]
  rfl

/-! ### Examples and counterexamples -/

open Witness

/-- Bounds of width `2^-26`: squared distances are below `1e-14`. -/
def tiny : Problem 1 := ⟨fun p => .ok (p 0), pt F64.one, pt ⟨false, 1023 * 2 ^ 52 + 2 ^ 26, by decide⟩, []⟩

/-- A point at three quarters of that range. -/
def threeQuarters : F64 := ⟨false, 1023 * 2 ^ 52 + 3 * 2 ^ 24, by decide⟩

/-- Samples alternate between that point and the lower bound. -/
def tinyRt : Rt 1 := rtWith (fun seed _ => if seed % 2 = 0 then threeQuarters else F64.one)
  (fun _ _ => F64.zero)

/-- Greedy selection holds for a concrete constrained diversification. -/
example : ∃ s1 ref', (scat linC (params 4 5 0) none).diversify (rt 1) sched
    (Scatter.seedPoints linC) = .ok (s1, ref') := by
  have h : (match (scat linC (params 4 5 0) none).diversify (rt 1) sched (Scatter.seedPoints linC) with
    | .ok _ => true | .error _ => false) = true := by decide +kernel
  split at h
  · rename_i x hx
    exact ⟨x.1, x.2, hx⟩
  · cases h

/-- C21 is violated by the sequential code at small scales: it selects a candidate that coincides with
the lower bound although another candidate has a positive distance to the reference set. -/
theorem C21_sequential_not_greedy :
    (match ((scat tiny (params 4 4 0) none).setParallel false).diversify tinyRt sched
        (Scatter.seedPoints tiny) with
      | .ok (_, ref') => decide (ref' = Scatter.seedPoints tiny ++ [tiny.lower])
      | .error _ => false) = true ∧
    (match (scat tiny (params 4 4 0) none).candidates tinyRt 3 with
      | .ok (_, cand) => decide (pt threeQuarters ∈ cand)
      | .error _ => false) = true ∧
    IsMinDist tiny.lower (Scatter.seedPoints tiny) F64.zero ∧
    ∃ v, IsMinDist (pt threeQuarters) (Scatter.seedPoints tiny) v ∧ F64.lt F64.zero v = true := by
  refine ⟨by decide +kernel, by decide +kernel, ?_, ?_⟩
  · have : Scatter.minDistPar .leaf tiny.lower (Scatter.seedPoints tiny) = F64.zero := by
      decide +kernel
    rw [← this]
    exact Scatter.minDistPar_isMin _ _ _
  · exact ⟨_, Scatter.minDistPar_isMin .leaf _ _, by decide +kernel⟩

/-- Sampling with constraints: no sample feasible within 21 batches (`x - 5 >= 0` on `[1, 4]`). -/
example : (match (scat { lin with constraints := [fun p => (p 0).sub (num 5)] } (params 4 5 0)
    none).candidates (rt 1) 3 with
      | .error (.noFeasibleCandidates 10 1) => true
      | _ => false) = true := by decide +kernel

example : ∀ seed, (Scatter.sample (rt 1) linC seed).isSome = true := fun seed =>
  sample_total rt_valid (p := linC) (by
    constructor <;> intro i <;> (have hi : i = 0 := Subsingleton.elim _ _) <;> subst hi <;>
      decide +kernel) seed

/-- A state with ten reference points: `k = 3`, three pairs, eighteen trial points. -/
example : (match ({ scat lin (params 10 12 0) none with
      refSet := (List.range 10).map fun i => pt (num (i + 1)) } : Scatter 1).trialPoints (rt 1) with
    | some (_, l) => decide (l.length = 18)
    | none => false) = true := by decide +kernel

end GS.Props
