/- C103: the tests on distances computed in doubles decide about the exact Euclidean distance, up to
rounding. -/
import Verif.Lemmas.DistErr
import Verif.Props.EveryMode
import Verif.Props.SolutionSet
import Verif.Props.Filters

namespace GS.Props
open GS GS.F64 GS.Witness
variable {n : Nat}

/-! ### Specification: exact values -/

/-- Exact rational value of a finite double. -/
def realVal (x : F64) : ℚ := (x.toInt : ℚ) / 2 ^ 1074

/-- Exact square of the Euclidean distance of two points with finite coordinates. -/
def exactSq (a b : Pt n) : ℚ := ∑ i, (realVal (a i) - realVal (b i)) ^ 2

/-- All coordinates are numbers. -/
def FinitePt (a : Pt n) : Prop := ∀ i, (a i).isFinite = true

/-- Relative error allowed for points with `n` coordinates. -/
def relErr (n : Nat) : ℚ := (n + 9) / 2 ^ 53

/-- Absolute error of squares allowed for points with `n` coordinates. -/
def absErr (n : Nat) : ℚ := (n + 1) / 2 ^ 1074

/-- The exact distance of the points is at least `df`, up to rounding. -/
def AtLeast (df : F64) (a b : Pt n) : Prop :=
  (1 - relErr n) * realVal df ^ 2 - absErr n ≤ exactSq a b

/-- The exact distance of the points is at most `df`, up to rounding. -/
def AtMost (df : F64) (a b : Pt n) : Prop :=
  (1 - relErr n) * exactSq a b ≤ (1 + relErr n) * realVal df ^ 2 + absErr n

/-! ### Proofs -/

theorem scale_rat : ((scale : Nat) : ℚ) = 2 ^ 1074 := by
  unfold scale
  exact Nat.cast_pow 2 1074

theorem exactSq_units (a b : Pt n) :
    (∑ i, ((a i).sv - (b i).sv) ^ 2 / (scale : ℚ)) = scale * exactSq a b := by
  have hs : (0 : ℚ) < scale := by exact_mod_cast scale_pos
  unfold exactSq
  rw [Finset.mul_sum]
  refine Finset.sum_congr rfl fun i _ => ?_
  unfold realVal sv
  rw [← scale_rat]
  field_simp

theorem sq_units (x : F64) : x.av ^ 2 / (scale : ℚ) = scale * realVal x ^ 2 := by
  have hs : (0 : ℚ) < scale := by exact_mod_cast scale_pos
  rw [← abs_sv, sq_abs]
  unfold realVal sv
  rw [← scale_rat]
  field_simp

theorem exactSq_symm (a b : Pt n) : exactSq a b = exactSq b a := by
  unfold exactSq
  refine Finset.sum_congr rfl fun i _ => ?_
  ring

theorem exactSq_nonneg (a b : Pt n) : 0 ≤ exactSq a b :=
  Finset.sum_nonneg fun _ _ => sq_nonneg _

theorem bern (m : Nat) : 1 - m * uro ≤ (1 - uro) ^ m := by
  have := one_add_mul_le_pow (a := -uro) (by unfold uro; norm_num) m
  rw [← sub_eq_add_neg] at this
  linarith

theorem pow_sub_le_one (m : Nat) : (1 - uro) ^ m ≤ 1 :=
  pow_le_one₀ one_sub_uro_nonneg (by have := uro_pos; linarith)

theorem pow_mul_pow_le (m : Nat) : (1 - uro) ^ m * (1 + uro) ^ m ≤ 1 := by
  rw [← mul_pow]
  refine pow_le_one₀ (mul_nonneg one_sub_uro_nonneg (by have := uro_pos; linarith)) ?_
  have := sq_nonneg uro
  nlinarith

theorem av_le_of_key {x y : F64} (hx : x.neg = false) (hy : y.neg = false) (h : x.key ≤ y.key) :
    x.av ≤ y.av := by
  unfold key at h
  simp only [hx, hy, Bool.false_eq_true, if_false, Int.ofNat_le] at h
  unfold av
  exact_mod_cast uval_le_iff.2 h

/-- Not computed as closer than the factor: not much closer in exact arithmetic. -/
theorem atLeast_of_not_lt {df : F64} {a b : Pt n} (ha : FinitePt a) (hb : FinitePt b)
    (hdf : df.isNaN = false) (hfin : (df.mul df).isInf = false)
    (h : F64.lt (dist2 a b) (df.mul df) = false) : AtLeast df a b := by
  have hw := within_dist2 ha hb
  rw [exactSq_units] at hw
  obtain ⟨sn, sp, _, si, sl⟩ := sq_err hdf
  have hle := (le_iff.1 (le_of_not_lt hw.num sn h)).2.2
  have hav := (av_le_of_key sp hw.pos hle).trans hw.upper
  have hl := sl.resolve_left (by rw [hfin]; simp)
  rw [sq_units] at hl
  unfold AtLeast relErr absErr
  have hs : (0 : ℚ) < scale := by exact_mod_cast scale_pos
  rw [← scale_rat]
  have hr0 : 0 ≤ realVal df ^ 2 := sq_nonneg _
  generalize realVal df ^ 2 = r at *
  have hr : 0 ≤ exactSq a b := exactSq_nonneg a b
  generalize exactSq a b = D at *
  generalize (df.mul df).av = w at *
  have h1 := mul_le_mul_of_nonneg_left hav (pow_uro_nonneg (n + 8))
  have h2 : (1 - uro) ^ (n + 8) * ((1 + uro) ^ (n + 8) * (scale * D + n / 2)) ≤ scale * D + n / 2 := by
    rw [← mul_assoc]
    have hp : (0 : ℚ) ≤ scale * D + n / 2 := by positivity
    have := mul_le_mul_of_nonneg_right (pow_mul_pow_le (n + 8)) hp
    linarith
  have h3 := mul_le_mul_of_nonneg_left hl (pow_uro_nonneg (n + 8))
  have h4 : (1 - uro) ^ (n + 8) * ((1 - uro) * (scale * r)) = (1 - uro) ^ (n + 9) * (scale * r) := by
    ring
  have h5 := pow_sub_le_one (n + 8)
  have h6 := mul_le_mul_of_nonneg_right (bern (n + 9)) (mul_nonneg hs.le hr0)
  have h7 : scale * ((1 - (n + 9) / 2 ^ 53) * r - (n + 1) / scale) ≤ scale * D := by
    have e : scale * ((1 - (n + 9) / 2 ^ 53) * r - (n + 1) / scale) =
        (1 - (n + 9) * uro) * (scale * r) - (n + 1) := by
      unfold uro; field_simp
    rw [e]
    push_cast at h6
    rw [mul_add, h4] at h3
    have hn : (0 : ℚ) ≤ n := Nat.cast_nonneg n
    linarith
  exact le_of_mul_le_mul_left h7 hs

/-- Not computed as farther than the factor: not much farther in exact arithmetic. -/
theorem atMost_of_not_gt {df : F64} {a b : Pt n} (ha : FinitePt a) (hb : FinitePt b)
    (hdf : df.isNaN = false) (hfin : (df.mul df).isInf = false)
    (h : F64.lt (df.mul df) (dist2 a b) = false) : AtMost df a b := by
  have hw := within_dist2 ha hb
  rw [exactSq_units] at hw
  obtain ⟨sn, sp, su, si, _⟩ := sq_err hdf
  have hle := (le_iff.1 (le_of_not_lt sn hw.num h)).2.2
  have hav := av_le_of_key hw.pos sp hle
  have hni : df.isInf = false := by
    cases hi : df.isInf
    · rfl
    · rw [si hi] at hfin; cases hfin
  have hu := su hni
  have hl := hw.lower.resolve_left (by
    intro hi
    rw [isInf_iff] at hi
    unfold key at hle
    rw [hw.pos, sp] at hle
    simp only [Bool.false_eq_true, if_false] at hle
    have h1 : (df.mul df).mag ≤ infMag := not_isNaN_iff.1 sn
    have h2 : (df.mul df).mag ≠ infMag := by
      intro hc; rw [isInf_iff.2 hc] at hfin; cases hfin
    omega)
  rw [sq_units] at hu
  unfold AtMost relErr absErr
  have hs : (0 : ℚ) < scale := by exact_mod_cast scale_pos
  rw [← scale_rat]
  have hr0 : 0 ≤ realVal df ^ 2 := sq_nonneg _
  generalize realVal df ^ 2 = r at *
  have hr : 0 ≤ exactSq a b := exactSq_nonneg a b
  generalize exactSq a b = D at *
  generalize (df.mul df).av = w at *
  have hsd : 0 ≤ scale * D := mul_nonneg hs.le hr
  have hsr : 0 ≤ scale * r := mul_nonneg hs.le hr0
  have h1 := mul_le_mul_of_nonneg_right (bern (n + 8)) hsd
  have hn : (0 : ℚ) ≤ n := Nat.cast_nonneg n
  have h2 := mul_le_mul_of_nonneg_right (pow_sub_le_one (n + 8)) hn
  have h3 := uro_pos
  have h4 := mul_nonneg h3.le hsd
  have h5 := mul_nonneg (mul_nonneg (add_nonneg hn (by norm_num : (0 : ℚ) ≤ 8)) h3.le) hsr
  have h7 : scale * ((1 - (n + 9) / 2 ^ 53) * D) ≤
      scale * ((1 + (n + 9) / 2 ^ 53) * r + (n + 1) / scale) := by
    have e : scale * ((1 - (n + 9) / 2 ^ 53) * D) = (1 - (n + 9) * uro) * (scale * D) := by
      unfold uro; field_simp
    have e' : scale * ((1 + (n + 9) / 2 ^ 53) * r + (n + 1) / scale) =
        (1 + (n + 9) * uro) * (scale * r) + (n + 1) := by
      unfold uro; field_simp
    rw [e, e']
    push_cast at h1
    rw [mul_sub] at hl
    linarith
  exact le_of_mul_le_mul_left h7 hs

theorem mul_self_nan {x : F64} (h : (x.mul x).isNaN = false) : x.isNaN = false := by
  cases hx : x.isNaN
  · rfl
  · have e : x.mul x = nan := by unfold F64.mul; simp [hx]
    rw [e] at h
    exact absurd h (by decide)

/-- Computed as farther than the factor: at least the factor apart in exact arithmetic. -/
theorem atLeast_of_gt {df : F64} {a b : Pt n} (ha : FinitePt a) (hb : FinitePt b)
    (h : F64.lt (df.mul df) (dist2 a b) = true) : AtLeast df a b := by
  obtain ⟨h1, h2, h3⟩ := lt_iff.1 h
  refine atLeast_of_not_lt ha hb (mul_self_nan h1) ?_ (not_lt_of_le (le_of_lt' h))
  cases hi : (df.mul df).isInf
  · rfl
  · exfalso
    have h4 := key_le_inf h2
    have h5 := (sq_err (mul_self_nan h1)).2.1
    have : (df.mul df).key = infMag := by
      unfold key; rw [h5, isInf_iff.1 hi]; rfl
    omega

theorem AtLeast.symm {df : F64} {a b : Pt n} (h : AtLeast df a b) : AtLeast df b a := by
  unfold AtLeast at *
  rwa [exactSq_symm]

/-! ### Theorems -/

/-- C103, the distance filter: an accepted point is at least the distance factor away from every recorded
solution. -/
theorem C103_accepted {params : FilterParams} {f : DistanceFilter n}
    (hf : DistanceFilter.new params = .ok f) {hist : List (Sol n)} {p : Pt n} (hp : FinitePt p)
    (h : (filterAfter f hist).check p = true) :
    ∀ s ∈ hist, FinitePt s.point → AtLeast params.distanceFactor p s.point :=
  fun s hs hfs => atLeast_of_gt hp hfs ((C01_check_iff params f hf hist p).1 h s hs)

/-- C103, the distance filter: a rejected point is at most the distance factor away from some recorded
solution, if the square of the factor is finite. -/
theorem C103_rejected_partial {params : FilterParams} {f : DistanceFilter n}
    (hf : DistanceFilter.new params = .ok f) {hist : List (Sol n)} {p : Pt n} (hp : FinitePt p)
    (hh : ∀ s ∈ hist, FinitePt s.point)
    (hdf : (params.distanceFactor.mul params.distanceFactor).isFinite = true)
    (h : (filterAfter f hist).check p = false) :
    ∃ s ∈ hist, AtMost params.distanceFactor p s.point := by
  by_contra hc
  push Not at hc
  have : (filterAfter f hist).check p = true := by
    rw [C01_check_iff params f hf hist p]
    intro s hs
    cases hl : F64.lt (params.distanceFactor.mul params.distanceFactor) (dist2 p s.point)
    · exact absurd (atMost_of_not_gt hp (hh s hs) (mul_self_nan (fin_not_nan hdf)) (fin_not_inf hdf) hl)
        (hc s hs)
    · rfl
  rw [this] at h; cases h

/-- C103, the duplicate test: a solution called a duplicate is at most the distance factor away from a
member of the set. -/
theorem C103_duplicate_partial {df : F64} {s : Sol n} {set : List (Sol n)} (hs : FinitePt s.point)
    (hset : ∀ t ∈ set, FinitePt t.point) (hdf : (df.mul df).isFinite = true)
    (h : isDuplicate df s set = true) : ∃ t ∈ set, AtMost df s.point t.point := by
  unfold isDuplicate at h
  rw [List.any_eq_true] at h
  obtain ⟨t, ht, hl⟩ := h
  exact ⟨t, ht, atMost_of_not_gt hs (hset t ht) (mul_self_nan (fin_not_nan hdf)) (fin_not_inf hdf)
    (not_lt_of_le (le_of_lt' hl))⟩

/-- C103, the duplicate test: a solution not called a duplicate is at least the distance factor away from
all members of the set. -/
theorem C103_not_duplicate_partial {df : F64} {s : Sol n} {set : List (Sol n)} (hs : FinitePt s.point)
    (hdf : (df.mul df).isFinite = true) (h : isDuplicate df s set = false) :
    ∀ t ∈ set, FinitePt t.point → AtLeast df s.point t.point := by
  unfold isDuplicate at h
  rw [List.any_eq_false] at h
  intro t ht hft
  exact atLeast_of_not_lt hs hft (mul_self_nan (fin_not_nan hdf)) (fin_not_inf hdf)
    (by simpa using h t ht)

/-- C103, results: any two members of the set a run returns are at least the distance factor apart. -/
theorem C103_returned_partial {env : Env n} {o : Opt n} {set : List (Sol n)} (hnew : o.solset = none)
    (hdf : (o.params.distanceFactor.mul o.params.distanceFactor).isFinite = true)
    (h : (run env o none).result = .ok set) :
    set.Pairwise fun s t => FinitePt s.point → FinitePt t.point →
      AtLeast o.params.distanceFactor s.point t.point := by
  refine (C05_run env o set hnew h).1.distinct.imp ?_
  intro s t hst hs ht
  exact (atLeast_of_not_lt ht hs (mul_self_nan (fin_not_nan hdf)) (fin_not_inf hdf) hst).symm

/-- C103, searches: in every mode, a point that passes the filters of a fresh run, and so every starting
point of a local search after the first, is at least the distance factor away from every solution of the
earlier batches. -/
theorem C103_searched {env : Env n} {o : Opt n} {loaded : Option (Except CkErr (Ckpt n))} (hb : Built o)
    (hf : Fresh o loaded) {pre post : List (Event n)} {it : Nat} {p : Pt n} {v : F64}
    (h : (run env o loaded).final.trace = pre ++ .examine it p v true :: post) (hp : FinitePt p) :
    ∀ s w, Event.processed s w ∈ pre → FinitePt s.point →
      AtLeast o.params.distanceFactor p s.point := by
  intro s w hs hfs
  have := ((C96_decided_by_earlier_batches hb hf).passes pre it p v true post h).1 rfl
  refine atLeast_of_gt hp hfs (this.2 s ?_)
  rw [List.nil_append]
  unfold procs
  rw [List.mem_filterMap]
  exact ⟨_, hs, rfl⟩

/-- C103, searches of a resumed run: the solutions of the checkpoint's distance filter count as well. -/
theorem C103_searched_resumed {env : Env n} {o : Opt n} {loaded : Option (Except CkErr (Ckpt n))}
    {c : Ckpt n} (hr : Resumes o loaded c) (hne : c.solutionSet ≠ some [])
    (ht : (o.restore c).targetReached = false) {pre post : List (Event n)} {it : Nat} {p : Pt n} {v : F64}
    (h : (run env o loaded).final.trace = pre ++ .examine it p v true :: post) (hp : FinitePt p) :
    ∀ s, (s ∈ c.distanceFilterSolutions ∨ ∃ w, Event.processed s w ∈ pre) → FinitePt s.point →
      AtLeast o.dist.params.distanceFactor p s.point := by
  intro s hs hfs
  have := ((C96_resumed hr hne ht).passes pre it p v true post h).1 rfl
  refine atLeast_of_gt hp hfs (this.2 s ?_)
  rw [List.mem_append]
  refine hs.imp id fun ⟨w, hw⟩ => ?_
  unfold procs
  rw [List.mem_filterMap]
  exact ⟨_, hw, rfl⟩

/-! ### Where it fails: the squares overflow -/

/-- The power of two `2 ^ k` as a double, for `k` up to 1023. -/
def pow2 (k : Nat) : F64 := mkRound false ((1023 + k) * 2 ^ 52)

/-- A point very far from the only recorded solution is rejected, since both squares overflow. -/
theorem C103_rejected_violated :
    ∃ (f : DistanceFilter 1) (s : Sol 1) (p : Pt 1) (df : F64),
      DistanceFilter.new ⟨df, 1, F64.one⟩ = .ok f ∧ df.isFinite = true ∧ FinitePt p ∧ FinitePt s.point ∧
      (filterAfter f [s]).check p = false ∧ ¬ AtMost df p s.point ∧
      realVal df ^ 2 * 2 ^ 800 = exactSq p s.point :=
  ⟨⟨[], ⟨pow2 600, 1, F64.one⟩⟩, ⟨fun _ => F64.zero, F64.one⟩, fun _ => pow2 1000, pow2 600,
    by decide +kernel, by decide +kernel, by unfold FinitePt; decide +kernel,
    by unfold FinitePt; decide +kernel, by decide +kernel,
    by unfold AtMost relErr absErr; decide +kernel, by decide +kernel⟩

/-- A solution very close to a member of the set, compared to the distance factor, is not a duplicate. -/
theorem C103_duplicate_violated :
    ∃ (s t : Sol 1) (df : F64), df.isFinite = true ∧ FinitePt s.point ∧ FinitePt t.point ∧
      isDuplicate df s [t] = false ∧ ¬ AtLeast df s.point t.point ∧
      exactSq s.point t.point * 2 ^ 960 = realVal df ^ 2 :=
  ⟨⟨fun _ => pow2 520, F64.one⟩, ⟨fun _ => F64.zero, F64.one⟩, pow2 1000,
    by decide +kernel, by unfold FinitePt; decide +kernel, by unfold FinitePt; decide +kernel,
    by decide +kernel, by unfold AtLeast relErr absErr; decide +kernel, by decide +kernel⟩

/-! ### Instances -/

/-- A point of the plane with natural coordinates. -/
def pt2 (x y : Nat) : Pt 2 := ![F64.ofNat x, F64.ofNat y]

-- the specification on a known triangle
example : exactSq (pt2 0 0) (pt2 3 4) = 25 := by decide +kernel
example : realVal F64.two = 2 := by decide +kernel
-- it is not met by points much closer, nor by points much farther
example : ¬ AtLeast (F64.ofNat 6) (pt2 0 0) (pt2 3 4) := by
  unfold AtLeast relErr absErr; decide +kernel
example : ¬ AtMost (F64.ofNat 4) (pt2 0 0) (pt2 3 4) := by
  unfold AtMost relErr absErr; decide +kernel
-- the hypotheses of `C103_accepted` and `C103_rejected_partial`
example : ∃ f : DistanceFilter 2, DistanceFilter.new ⟨F64.ofNat 4, 1, F64.one⟩ = .ok f ∧
    (filterAfter f [⟨pt2 3 4, F64.one⟩]).check (pt2 0 0) = true ∧
    (filterAfter f [⟨pt2 3 4, F64.one⟩]).check (pt2 1 1) = false ∧
    FinitePt (pt2 0 0) ∧ FinitePt (pt2 3 4) ∧ ((F64.ofNat 4).mul (F64.ofNat 4)).isFinite = true :=
  ⟨⟨[], ⟨F64.ofNat 4, 1, F64.one⟩⟩, by decide +kernel, by decide +kernel, by decide +kernel,
    by unfold FinitePt; decide +kernel, by unfold FinitePt; decide +kernel, by decide +kernel⟩

/-- A fresh run on one variable returns two solutions with finite points; the square of its factor is
finite. -/
example : (exOpt.map fun o => (o.solset.isNone,
    (o.params.distanceFactor.mul o.params.distanceFactor).isFinite,
    (run (env stay) o none).result.toOption.map (·.map fun s => (s.point 0).isFinite))) =
    some (true, true, some [true, true]) := by decide +kernel

/-- In the parallel demo run a finite point passes after a solution was processed. -/
example : Built demo ∧ Fresh demo none ∧
    ((run (env stay) demo none).final.trace.zipIdx.any fun x => match x.1 with
      | .examine _ p _ true =>
        (p 0).isFinite && !(procs ((run (env stay) demo none).final.trace.take x.2)).isEmpty
      | _ => false) = true :=
  ⟨demo_built, Or.inl rfl, by decide +kernel⟩

/-- A resumed parallel run with a passing point. -/
example : ((savedIn (run wideEnv wideSaving none).final.trace).any fun c =>
    !c.distanceFilterSolutions.isEmpty && !(wideSaving.restore c).targetReached &&
    (run wideEnv wideSaving (some (.ok c))).final.trace.any fun e => match e with
      | .examine _ p _ true => (p 0).isFinite
      | _ => false) = true := by decide +kernel

end GS.Props
