/- C11-C13: construction, custom points, bounds validation. -/
import Verif.Props.SolutionSet
import Verif.Lemmas.Witness

namespace GS.Props
open GS F64
variable {n : Nat}

/-! ### C11 -/

/-- C11 (partial: the smallest accepted population is 4, not the documented 3, and NaN factors are
accepted; see `C11_three_rejected`, `C11_nan_accepted`): exact acceptance condition of `OQNLP::new`. -/
theorem C11_accepts_iff_partial (p : Problem n) (q : Params) :
    (∃ o, Opt.new p q = .ok o) ↔
      4 ≤ q.populationSize ∧ q.iterations ≤ q.populationSize ∧
      F64.le q.thresholdFactor F64.zero = false ∧ F64.lt q.distanceFactor F64.zero = false := by
  unfold Opt.new
  split
  · rename_i h
    exact ⟨fun ⟨_, hc⟩ => (by cases hc), fun hc => (by omega)⟩
  · split
    · exact ⟨fun ⟨_, hc⟩ => (by cases hc), fun hc => (by omega)⟩
    · split
      · rename_i h; simp [h]
      · rename_i h1 h2 h3
        unfold DistanceFilter.new
        by_cases h4 : F64.lt q.distanceFactor F64.zero = true
        · simp [h4]
        · simp only [Bool.not_eq_true] at h3 h4
          simp [h3, h4]; omega

/-- C11: for numbers (no NaN) the last two conditions are "positive" and "non-negative". -/
theorem C11_accepts_numbers_partial (p : Problem n) (q : Params)
    (ht : q.thresholdFactor.isNaN = false) (hd : q.distanceFactor.isNaN = false) :
    (∃ o, Opt.new p q = .ok o) ↔
      4 ≤ q.populationSize ∧ q.iterations ≤ q.populationSize ∧
      F64.lt F64.zero q.thresholdFactor = true ∧ F64.le F64.zero q.distanceFactor = true := by
  rw [C11_accepts_iff_partial]
  have hz : F64.zero.isNaN = false := by decide
  simp only [lt_iff, le_iff, Bool.eq_false_iff, ne_eq, ht, hd, hz, true_and]
  omega

/-- C11: the error names the first violated condition with the offending value. -/
theorem C11_first_error (p : Problem n) (q : Params) (e : Err) (h : Opt.new p q = .error e) :
    (q.populationSize ≤ 3 ∧ e = .invalidPopulationSize q.populationSize) ∨
    (3 < q.populationSize ∧ q.populationSize < q.iterations ∧
      e = .invalidIterations q.iterations q.populationSize) ∨
    (3 < q.populationSize ∧ q.iterations ≤ q.populationSize ∧
      F64.le q.thresholdFactor F64.zero = true ∧ e = .invalidThresholdFactor q.thresholdFactor) ∨
    (3 < q.populationSize ∧ q.iterations ≤ q.populationSize ∧
      F64.le q.thresholdFactor F64.zero = false ∧ F64.lt q.distanceFactor F64.zero = true ∧
      e = .distanceFilter (.negativeDistanceFactor q.distanceFactor)) := by
  unfold Opt.new at h
  split at h
  · rename_i h1; cases h; exact Or.inl ⟨h1, rfl⟩
  · rename_i h1
    split at h
    · rename_i h2; cases h; exact Or.inr (Or.inl ⟨by omega, by omega, rfl⟩)
    · rename_i h2
      split at h
      · rename_i h3; cases h; exact Or.inr (Or.inr (Or.inl ⟨by omega, by omega, h3, rfl⟩))
      · rename_i h3
        unfold DistanceFilter.new at h
        by_cases h4 : F64.lt q.distanceFactor F64.zero = true
        · rw [if_pos h4] at h
          cases h
          exact Or.inr (Or.inr (Or.inr ⟨by omega, by omega, by simpa using h3, h4, rfl⟩))
        · rw [if_neg h4] at h; cases h

/-- C11: an accepted optimizer keeps the given parameters and starts without solutions, with the
initial filters. -/
theorem C11_initial_state (p : Problem n) (q : Params) (o : Opt n) (h : Opt.new p q = .ok o) :
    o.params = q ∧ o.solset = none ∧ o.dist.solutions = [] ∧ o.merit.threshold = F64.inf ∧
      o.dist.params.distanceFactor = q.distanceFactor ∧ o.curIter = 0 ∧ o.target = none ∧
      o.exclude = false ∧ o.custom = none ∧ o.ckpt = none := by
  unfold Opt.new at h
  split at h
  · cases h
  · split at h
    · cases h
    · split at h
      · cases h
      · unfold DistanceFilter.new at h
        by_cases h4 : F64.lt q.distanceFactor F64.zero = true
        · rw [if_pos h4] at h; cases h
        · rw [if_neg h4] at h; cases h
          exact ⟨rfl, rfl, rfl, rfl, rfl, rfl, rfl, rfl, rfl, rfl⟩

open Witness

example : ∃ o, Opt.new lin (params 4 5 0) = .ok o :=
  (C11_accepts_iff_partial lin (params 4 5 0)).2 (by decide +kernel)

/-- C11 is violated at the documented minimum: a population of 3 is rejected. -/
theorem C11_three_rejected (p : Problem n) (q : Params) (h : q.populationSize = 3) :
    Opt.new p q = .error (.invalidPopulationSize 3) := by
  unfold Opt.new; rw [if_pos (by omega), h]

/-- C11 is violated by NaN: a NaN threshold factor and a NaN distance factor are accepted. -/
theorem C11_nan_accepted : ∃ o, Opt.new lin
    { params 4 5 0 with thresholdFactor := F64.nan, distanceFactor := F64.nan } = .ok o :=
  (C11_accepts_iff_partial lin _).2 (by decide +kernel)

/-! ### C12 -/

/-- The row lies between the bounds in every coordinate. -/
def rowInside (p : Problem n) (row : List F64) : Prop :=
  ∀ i : Fin n, ∀ x, row[i.val]? = some x →
    F64.lt x (p.lower i) = false ∧ F64.lt (p.upper i) x = false

/-- An acceptable row: right dimension and no coordinate outside its bounds. -/
def rowOk (p : Problem n) (row : List F64) : Prop := row.length = n ∧ rowInside p row

theorem rowPt_some {row : List F64} (h : row.length = n) :
    ∃ x : Pt n, Opt.rowPt row = some x ∧ ∀ i : Fin n, row[i.val]? = some (x i) := by
  unfold Opt.rowPt
  rw [dif_pos h]
  exact ⟨_, rfl, fun i => by rw [List.getElem?_eq_getElem]⟩

theorem within_iff {p : Problem n} {x : Pt n} : withinBounds p x = true ↔
    ∀ i, F64.lt (x i) (p.lower i) = false ∧ F64.lt (p.upper i) (x i) = false := by
  unfold withinBounds
  rw [List.all_eq_true]
  simp only [Bool.not_eq_true', Bool.or_eq_false_iff, F64.gt, List.mem_finRange, forall_const]

theorem rowInside_iff {p : Problem n} {row : List F64} {x : Pt n}
    (h : ∀ i : Fin n, row[i.val]? = some (x i)) :
    rowInside p row ↔ withinBounds p x = true := by
  rw [within_iff]
  constructor
  · intro hr i; exact hr i (x i) (h i)
  · intro hr i y hy
    rw [h i] at hy; injection hy with hy; subst hy; exact hr i

/-- C12 (partial: a NaN coordinate is "not outside", see `C12_nan_accepted`): `with_points` succeeds
exactly when all rows have the right dimension and no coordinate outside the bounds. -/
theorem C12_accepts_iff_partial (o : Opt n) (rows : List (List F64)) :
    (∃ o', o.withPoints rows = .ok o') ↔ ∀ row ∈ rows, rowOk o.problem row := by
  have key : ∀ k, (∃ l, Opt.checkRows o.problem k rows = .ok l) ↔
      ∀ row ∈ rows, rowOk o.problem row := by
    induction rows with
    | nil => intro k; simp [Opt.checkRows]
    | cons row rest ih =>
      intro k
      unfold Opt.checkRows
      by_cases hl : row.length = n
      · obtain ⟨x, hx, hi⟩ := rowPt_some hl
        rw [hx]
        dsimp only
        by_cases hw : withinBounds o.problem x = true
        · rw [if_pos hw]
          have hr : rowOk o.problem row := ⟨hl, (rowInside_iff hi).2 hw⟩
          have := ih (k + 1)
          simp only [List.mem_cons, forall_eq_or_imp, hr, true_and]
          rw [← this]
          cases Opt.checkRows o.problem (k + 1) rest <;> simp
        · rw [if_neg hw]
          simp only [reduceCtorEq, exists_const, List.mem_cons, forall_eq_or_imp, false_iff, not_and]
          intro hr
          exact absurd ((rowInside_iff hi).1 hr.2) hw
      · have : Opt.rowPt (n := n) row = none := by unfold Opt.rowPt; rw [dif_neg hl]
        rw [this]
        simp only [reduceCtorEq, exists_const, List.mem_cons, forall_eq_or_imp, false_iff, not_and]
        intro hr
        exact absurd hr.1 hl
  unfold Opt.withPoints
  rw [← key 0]
  cases Opt.checkRows o.problem 0 rows <;> simp

/-- C12: the accepted points are registered unchanged and in order, and nothing else changes. -/
theorem C12_registers (o o' : Opt n) (rows : List (List F64)) (h : o.withPoints rows = .ok o') :
    ∃ pts : List (Pt n), o' = { o with custom := some pts } ∧
      pts.map List.ofFn = rows := by
  have key : ∀ k (l : List (Pt n)), Opt.checkRows o.problem k rows = .ok l →
      l.map List.ofFn = rows := by
    clear h
    induction rows with
    | nil => intro k l hl; cases hl; rfl
    | cons row rest ih =>
      intro k l hl
      unfold Opt.checkRows at hl
      split at hl
      · cases hl
      · rename_i x hx
        split at hl
        · split at hl
          · cases hl
          · rename_i l' hl'
            cases hl
            have hrow : List.ofFn x = row := by
              unfold Opt.rowPt at hx
              split at hx
              · rename_i hlen
                injection hx with hx
                subst hx
                apply List.ext_getElem
                · simp [hlen]
                · intro i h1 h2; simp
              · cases hx
            rw [List.map_cons, hrow, ih _ _ hl']
        · cases hl
  unfold Opt.withPoints at h
  split at h
  · cases h
  · rename_i l hl
    cases h
    exact ⟨l, rfl, key 0 l hl⟩

/-- C12: the error names the first offending row. -/
theorem C12_first_error (o : Opt n) (rows : List (List F64)) (e : Err)
    (h : o.withPoints rows = .error e) :
    ∃ (i : Nat) (row : List F64), rows[i]? = some row ∧
      (∀ (j : Nat) r, j < i → rows[j]? = some r → rowOk o.problem r) ∧
      ((row.length ≠ n ∧ e = .customDimension i n row.length) ∨
        (row.length = n ∧ ¬ rowInside o.problem row ∧ e = .customOutOfBounds i)) := by
  have key : ∀ k, Opt.checkRows o.problem k rows = .error e →
      ∃ (i : Nat) (row : List F64), rows[i]? = some row ∧
      (∀ (j : Nat) r, j < i → rows[j]? = some r → rowOk o.problem r) ∧
      ((row.length ≠ n ∧ e = .customDimension (k + i) n row.length) ∨
        (row.length = n ∧ ¬ rowInside o.problem row ∧ e = .customOutOfBounds (k + i))) := by
    clear h
    induction rows with
    | nil => intro k hk; cases hk
    | cons row rest ih =>
      intro k hk
      unfold Opt.checkRows at hk
      by_cases hl : row.length = n
      · obtain ⟨x, hx, hi⟩ := rowPt_some hl
        rw [hx] at hk
        dsimp only at hk
        by_cases hw : withinBounds o.problem x = true
        · rw [if_pos hw] at hk
          split at hk
          · rename_i e' he'
            injection hk with hk
            subst hk
            obtain ⟨i, r, h1, h2, h3⟩ := ih (k + 1) he'
            refine ⟨i + 1, r, by simpa using h1, ?_, ?_⟩
            · intro j r' hj hr'
              cases j with
              | zero =>
                simp at hr'; subst hr'
                exact ⟨hl, (rowInside_iff hi).2 hw⟩
              | succ j => exact h2 j r' (by omega) (by simpa using hr')
            · have : k + 1 + i = k + (i + 1) := by omega
              rw [this] at h3; exact h3
          · cases hk
        · rw [if_neg hw] at hk
          injection hk with hk
          refine ⟨0, row, rfl, by simp, Or.inr ⟨hl, ?_, hk.symm⟩⟩
          intro hr; exact hw ((rowInside_iff hi).1 hr)
      · have : Opt.rowPt (n := n) row = none := by unfold Opt.rowPt; rw [dif_neg hl]
        rw [this] at hk
        injection hk with hk
        exact ⟨0, row, rfl, by simp, Or.inl ⟨hl, hk.symm⟩⟩
  unfold Opt.withPoints at h
  split at h
  · rename_i e' he'
    injection h with h
    subst h
    simpa using key 0 he'
  · cases h

/-- The bounds 1 and 4 of the example problem accept 2 and 4 but not 5. -/
example : rowOk lin [num 2] ∧ ¬ rowOk lin [num 5] ∧ ¬ rowOk lin [num 2, num 2] := by
  refine ⟨⟨rfl, ?_⟩, ?_, ?_⟩
  · intro i x hx
    have hi : i = 0 := Subsingleton.elim _ _
    subst hi
    cases hx
    decide +kernel
  · intro h
    have := (h.2 0 (num 5) rfl).2
    exact absurd this (by decide +kernel)
  · intro h; exact absurd h.1 (by decide)

/-- C12 is violated by NaN: a NaN coordinate is accepted although it is not between the bounds. -/
theorem C12_nan_accepted (o : Opt 1) : ∃ o', o.withPoints [[F64.nan]] = .ok o' := by
  rw [C12_accepts_iff_partial]
  intro row hr
  simp only [List.mem_singleton] at hr
  subst hr
  refine ⟨rfl, fun i x hx => ?_⟩
  have hi : i = 0 := Subsingleton.elim _ _
  subst hi
  cases hx
  exact ⟨by simp [F64.lt, show F64.nan.isNaN = true by decide],
    by simp [F64.lt, show F64.nan.isNaN = true by decide]⟩

/-! ### C13 -/

/-- C13 (partial: NaN bounds are not rejected, see `C13_nan_bounds_accepted`): construction succeeds
exactly when no variable has lower >= upper. -/
theorem C13_accepts_iff_partial (p : Problem n) (q : Params) :
    (∃ s, Scatter.new p q = .ok s) ↔ ∀ i, F64.le (p.upper i) (p.lower i) = false := by
  unfold Scatter.new
  cases h : (List.finRange n).find? fun i => F64.ge (p.lower i) (p.upper i) with
  | some i =>
    have := List.find?_some h
    refine ⟨fun ⟨_, hc⟩ => (by cases hc), fun hc => ?_⟩
    have h2 := hc i
    simp only [F64.ge, h2] at this
    cases this
  | none =>
    rw [List.find?_eq_none] at h
    simp only [Except.ok.injEq, exists_eq', true_iff]
    intro i
    simpa [F64.ge] using h i (List.mem_finRange i)

/-- C13: for bounds that are numbers, acceptance means lower < upper for every variable. -/
theorem C13_accepts_numbers_partial (p : Problem n) (q : Params)
    (hl : ∀ i, (p.lower i).isNaN = false) (hu : ∀ i, (p.upper i).isNaN = false) :
    (∃ s, Scatter.new p q = .ok s) ↔ ∀ i, F64.lt (p.lower i) (p.upper i) = true := by
  rw [C13_accepts_iff_partial]
  constructor
  · intro h i
    have := h i
    rw [Bool.eq_false_iff, ne_eq, le_iff] at this
    exact lt_iff.2 ⟨hl i, hu i, by
      by_contra hc
      exact this ⟨hu i, hl i, by omega⟩⟩
  · intro h i
    have := lt_iff.1 (h i)
    rw [Bool.eq_false_iff, ne_eq, le_iff]
    intro hc; omega

/-- C13: the error names the first variable with lower >= upper and its bounds. -/
theorem C13_first_error (p : Problem n) (q : Params) (e : ScatterErr)
    (h : Scatter.new p q = .error e) :
    ∃ i : Fin n, e = .invalidBounds i (p.lower i) (p.upper i) ∧
      F64.le (p.upper i) (p.lower i) = true ∧ ∀ j, j < i → F64.le (p.upper j) (p.lower j) = false := by
  unfold Scatter.new at h
  split at h
  · rename_i i hi
    cases h
    refine ⟨i, rfl, by simpa [F64.ge] using List.find?_some hi, fun j hj => ?_⟩
    rw [List.find?_eq_some_iff_getElem] at hi
    obtain ⟨_, k, hk, hki, hbefore⟩ := hi
    have e : k = i.val := by
      have := congrArg Fin.val hki
      simpa using this
    have := hbefore j.val (by omega)
    simpa [F64.ge] using this
  · cases h

/-- C13: a run with an invalid variable fails with `InvalidBounds` for the first such variable, before
any event (in particular before any evaluation or local search). -/
theorem C13_run_rejects (env : Env n) (o : Opt n) (i : Fin n)
    (hi : F64.le (o.problem.upper i) (o.problem.lower i) = true) :
    (run env o none).final.trace = [] ∧ ∃ j : Fin n, j ≤ i ∧
      F64.le (o.problem.upper j) (o.problem.lower j) = true ∧
      (run env o none).result =
        .error (.scatterNew (.invalidBounds j (o.problem.lower j) (o.problem.upper j))) := by
  cases hs : Scatter.new o.problem o.params with
  | ok s =>
    have := (C13_accepts_iff_partial o.problem o.params).1 ⟨s, hs⟩ i
    rw [this] at hi; cases hi
  | error e =>
    obtain ⟨j, he, hj, hbefore⟩ := C13_first_error _ _ _ hs
    have hji : j ≤ i := by
      by_contra hc
      have := hbefore i (by omega)
      rw [this] at hi; cases hi
    have hbody : ∀ m : M n, m.opt.problem = o.problem → m.opt.params = o.params →
        Act.body env false m = (m, .fail (.scatterNew e)) := by
      intro m h1 h2
      unfold Act.body Act.stage1 Act.scatter
      rw [h1, h2, hs]
      rfl
    have hres : ∀ x, (run env o none) = x → x = ⟨(Act.obsStart env ⟨o, 0, 0, []⟩).1,
        .error (.scatterNew e)⟩ := by
      intro x hx
      subst hx
      unfold run
      dsimp only
      have ht : Opt.tryResume (Act.obsStart env ⟨o, 0, 0, []⟩).1.opt none =
          .ok ((Act.obsStart env ⟨o, 0, 0, []⟩).1.opt, false) := by
        unfold Opt.tryResume
        split
        · rfl
        · split <;> rfl
      rw [ht]
      dsimp only
      rw [hbody _ rfl rfl]
    rw [hres _ rfl]
    exact ⟨rfl, j, hji, hj, by rw [he]⟩

/-- The swapped bounds of this problem are rejected (hypothesis of `C13_run_rejects`). -/
example : F64.le (num 4) (num 4) = true ∧ F64.le (num 1) (num 4) = true := by decide +kernel

/-- C13 is violated by NaN: NaN bounds are accepted although lower < upper does not hold. -/
theorem C13_nan_bounds_accepted (q : Params) :
    ∃ s, Scatter.new (⟨fun _ => .ok F64.zero, fun _ => F64.nan, fun _ => F64.nan, []⟩ : Problem 1) q =
      .ok s := by
  rw [C13_accepts_iff_partial]
  intro i
  show F64.le F64.nan F64.nan = false
  decide

end GS.Props
