/- C01-C03: the distance filter, the merit filter and the threshold relaxation. -/
import Verif.Model.Oqnlp
import Verif.Lemmas.Dist
import Verif.Lemmas.Relax

namespace GS.Props
open GS
variable {n : Nat}

/-- The filter after a history of `add_solution` calls. -/
def filterAfter (f : DistanceFilter n) (hist : List (Sol n)) : DistanceFilter n :=
  hist.foldl DistanceFilter.add f

theorem filterAfter_solutions (f : DistanceFilter n) (hist : List (Sol n)) :
    (filterAfter f hist).solutions = f.solutions ++ hist ∧
      (filterAfter f hist).params = f.params := by
  induction hist generalizing f with
  | nil => simp [filterAfter]
  | cons s l ih =>
    have := ih (f.add s)
    simp only [filterAfter, List.foldl_cons] at this ⊢
    rw [this.1, this.2]
    simp [DistanceFilter.add]

/-- C01: `check` is true exactly when the point is farther than the distance factor from every
recorded solution. -/
theorem C01_check_iff (params : FilterParams) (f : DistanceFilter n)
    (hf : DistanceFilter.new params = .ok f) (hist : List (Sol n)) (p : Pt n) :
    (filterAfter f hist).check p = true ↔
      ∀ s ∈ hist, F64.lt (params.distanceFactor.mul params.distanceFactor) (dist2 p s.point) = true := by
  have h := filterAfter_solutions f hist
  have hn : f.solutions = [] ∧ f.params = params := by
    unfold DistanceFilter.new at hf
    split at hf
    · cases hf
    · cases hf; exact ⟨rfl, rfl⟩
  unfold DistanceFilter.check
  rw [h.1, h.2, hn.1, hn.2]
  simp [F64.gt]

/-- C01: construction fails exactly for a negative distance factor. -/
theorem C01_new_ok_iff (params : FilterParams) :
    (∃ f : DistanceFilter n, DistanceFilter.new params = .ok f) ↔
      F64.lt params.distanceFactor F64.zero = false := by
  unfold DistanceFilter.new
  split <;> rename_i h
  · simp [h]
  · simpa using h

/-- C01: recording more solutions can only turn acceptance into rejection. -/
theorem C01_monotone (f : DistanceFilter n) (hist more : List (Sol n)) (p : Pt n)
    (h : (filterAfter f (hist ++ more)).check p = true) : (filterAfter f hist).check p = true := by
  have h1 := filterAfter_solutions f hist
  have h2 := filterAfter_solutions f (hist ++ more)
  unfold DistanceFilter.check at *
  rw [h2.1, h2.2] at h
  rw [h1.1, h1.2]
  simp only [List.all_eq_true] at *
  intro s hs
  apply h
  simp only [List.mem_append] at hs ⊢
  tauto

/-- C01: the order in which solutions were recorded is irrelevant. -/
theorem C01_order (f : DistanceFilter n) (a b : List (Sol n)) (h : a.Perm b) (p : Pt n) :
    (filterAfter f a).check p = (filterAfter f b).check p := by
  have h1 := filterAfter_solutions f a
  have h2 := filterAfter_solutions f b
  unfold DistanceFilter.check
  rw [h1.1, h1.2, h2.1, h2.2]
  rw [Bool.eq_iff_iff]
  simp only [List.all_eq_true, List.mem_append, h.mem_iff]

/-- C01: a recorded point with finite coordinates is never accepted again, whatever the factor. -/
theorem C01_recorded_rejected (f : DistanceFilter n) (hist : List (Sol n)) (s : Sol n)
    (hs : s ∈ hist) (hfin : ∀ i, (s.point i).isFinite = true) :
    (filterAfter f hist).check s.point = false := by
  have h1 := filterAfter_solutions f hist
  unfold DistanceFilter.check
  rw [h1.1, h1.2]
  rw [List.all_eq_false]
  refine ⟨s, by simp [hs], ?_⟩
  rw [dist2_self hfin, not_gt_zero_sq]
  simp

-- a filter with factor 2, solutions at 0 and 10: 5 is accepted, 1 is not
example :
    let par : FilterParams := ⟨F64.two, 1, F64.one⟩
    let pt : Nat → Pt 1 := fun k _ => F64.ofNat k
    ∃ f : DistanceFilter 1, DistanceFilter.new par = .ok f ∧
      (filterAfter f [⟨pt 0, F64.one⟩, ⟨pt 10, F64.one⟩]).check (pt 5) = true ∧
      (filterAfter f [⟨pt 0, F64.one⟩, ⟨pt 10, F64.one⟩]).check (pt 1) = false :=
  ⟨⟨[], ⟨F64.two, 1, F64.one⟩⟩, by decide +kernel, by decide +kernel, by decide +kernel⟩

/-- The merit filter after a history of threshold updates. -/
def meritAfter (hist : List F64) : MeritFilter := hist.foldl MeritFilter.update MeritFilter.new

/-- Threshold in force after a history. -/
def thresholdAfter : List F64 → F64
  | [] => F64.inf
  | [t] => t
  | _ :: l => thresholdAfter l

theorem meritAfter_threshold (hist : List F64) :
    (meritAfter hist).threshold = thresholdAfter hist := by
  have key : ∀ (l : List F64) (m : MeritFilter), l ≠ [] →
      (l.foldl MeritFilter.update m).threshold = thresholdAfter l := by
    intro l
    induction l with
    | nil => intro m h; exact absurd rfl h
    | cons a l ih =>
      intro m _
      cases l with
      | nil => rfl
      | cons b l => exact ih (m.update a) (by simp)
  cases hist with
  | nil => rfl
  | cons a l => exact key _ _ (by simp)

/-- C02: a value passes exactly when it is `<=` the last threshold set. -/
theorem C02_check_iff (hist : List F64) (v : F64) :
    (meritAfter hist).check v = true ↔ F64.le v (thresholdAfter hist) = true := by
  unfold MeritFilter.check; rw [meritAfter_threshold]

/-- C02: before any update every number passes. -/
theorem C02_initial (v : F64) : (meritAfter []).check v = true ↔ v.isNaN = false := by
  rw [C02_check_iff]
  constructor
  · intro h; exact (F64.le_iff.1 h).1
  · intro h; exact F64.le_inf h

/-- C02: NaN never passes. -/
theorem C02_nan (hist : List F64) (v : F64) (h : v.isNaN = true) :
    (meritAfter hist).check v = false := by
  simp [MeritFilter.check, F64.le, h]

/-- C02: lowering the threshold admits nothing new. -/
theorem C02_lower (hist : List F64) (t v : F64) (ht : F64.le t (thresholdAfter hist) = true)
    (hv : (meritAfter (hist ++ [t])).check v = true) : (meritAfter hist).check v = true := by
  rw [C02_check_iff] at *
  have : thresholdAfter (hist ++ [t]) = t := by
    rw [← meritAfter_threshold, meritAfter, List.foldl_append]; rfl
  rw [this] at hv
  exact F64.le_trans' hv ht

example : (meritAfter [F64.two, F64.one]).check F64.one = true ∧
    (meritAfter [F64.two, F64.one]).check F64.two = false := by decide

/-- C03: after a relaxation every value accepted before is still accepted. -/
theorem C03_never_tightens (problem : Problem n) (params : Params) (o : Opt n)
    (_hnew : Opt.new problem params = .ok o) (hpos : F64.lt F64.zero params.thresholdFactor = true)
    (f : MeritFilter) (hfin : f.threshold.isFinite = true) (v : F64) (hv : f.check v = true) :
    (f.update (Opt.relaxed params.thresholdFactor f.threshold)).check v = true :=
  F64.le_trans' hv (relax_le hfin hpos)

/-- C03: for factors of at least `f64::EPSILON` the relaxed threshold is strictly larger. -/
theorem C03_strict (factor t : F64) (ht : t.isFinite = true)
    (hf : F64.le (F64.lit 1 (2 ^ 52)) factor = true) :
    F64.lt t (Opt.relaxed factor t) = true :=
  relax_lt ht hf

-- threshold 2, factor 0.5: new threshold 3.5
example : F64.lt F64.zero (F64.lit 1 2) = true ∧ F64.le (F64.lit 1 (2 ^ 52)) (F64.lit 1 2) = true ∧
    F64.two.isFinite = true ∧ Opt.relaxed (F64.lit 1 2) F64.two = F64.lit 7 2 := by decide +kernel

/-- C03: the bound on the factor is needed; a factor of `2^-54` leaves the threshold 2 unchanged. -/
theorem C03_tiny_factor_stuck :
    F64.lt F64.zero (F64.lit 1 (2 ^ 54)) = true ∧
      Opt.relaxed (F64.lit 1 (2 ^ 54)) F64.two = F64.two := by decide +kernel

/-- C03: the restriction to finite thresholds is needed; from `-inf` the relaxed threshold is NaN,
which rejects everything. -/
theorem C03_neg_inf_stuck (v : F64) :
    (MeritFilter.new.update (Opt.relaxed F64.one F64.negInf)).check v = false := by
  have : Opt.relaxed F64.one F64.negInf = F64.nan := by decide +kernel
  rw [this]
  simp [MeritFilter.check, MeritFilter.update, F64.le, show F64.nan.isNaN = true by decide]

end GS.Props
