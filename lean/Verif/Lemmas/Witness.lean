/- A concrete runtime satisfying the contracts of `Rt.Valid`, and a concrete environment, used by the
non-vacuity examples and by the counterexamples. -/
import Verif.Model.Oqnlp
import Verif.F64.Round
import Mathlib.Data.List.Sort

namespace GS.Witness
open GS F64
variable {n : Nat}

/-- Stable insertion sort by objective. -/
def isort (l : Scored n) : Scored n := l.insertionSort fun a b => F64.tle a.2 b.2 = true

/-- Runtime: samples alternate between the two bounds, sorting is insertion sort, shuffling reverses. -/
def rt (n : Nat) : Rt n where
  draw := fun seed i => seed + i
  uniformIncl := fun seed _ lo hi => if F64.le lo hi then some (if seed % 2 = 0 then lo else hi) else none
  uniformExcl := fun _ _ lo hi => if F64.lt lo hi then some lo else none
  sort := isort
  selectNth := fun _ l => isort l
  shuffle := fun _ l => l.reverse

theorem isort_perm (l : Scored n) : (isort l).Perm l := List.perm_insertionSort _ l

theorem isort_sorted (l : Scored n) :
    (isort l).Pairwise fun a b => F64.tle a.2 b.2 = true := by
  have : Std.Total (fun a b : Pt n × F64 => F64.tle a.2 b.2 = true) :=
    ⟨fun a b => by simp only [tle_iff]; omega⟩
  have : IsTrans (Pt n × F64) (fun a b => F64.tle a.2 b.2 = true) :=
    ⟨fun a b c h1 h2 => by simp only [tle_iff] at *; omega⟩
  exact List.pairwise_insertionSort _ l

theorem sorted_get {l : Scored n} (h : l.Pairwise fun a b => F64.tle a.2 b.2 = true)
    {i j : Nat} {x y : Pt n × F64} (hij : i ≤ j) (hx : l[i]? = some x) (hy : l[j]? = some y) :
    F64.tle x.2 y.2 = true := by
  obtain ⟨hi, rfl⟩ := List.getElem?_eq_some_iff.1 hx
  obtain ⟨hj, rfl⟩ := List.getElem?_eq_some_iff.1 hy
  rcases Nat.eq_or_lt_of_le hij with rfl | hlt
  · rw [tle_iff]
  · exact List.pairwise_iff_getElem.1 h i j hi hj hlt

theorem rt_valid : (rt n).Valid where
  uniformIncl_mem := by
    intro s i lo hi x h
    unfold rt at h
    dsimp only at h
    split at h
    · rename_i hle
      have h' := le_iff.1 hle
      injection h with h
      split at h
      · subst h; exact ⟨le_refl_of h'.1, hle⟩
      · subst h; exact ⟨hle, le_refl_of h'.2.1⟩
    · cases h
  uniformIncl_total := by
    intro s i lo hi h _
    simp [rt, h]
  uniformExcl_mem := by
    intro s i lo hi x h
    unfold rt at h
    dsimp only at h
    split at h
    · rename_i hlt
      injection h with h; subst h
      exact ⟨le_refl_of (lt_iff.1 hlt).1, hlt⟩
    · cases h
  uniformExcl_total := by
    intro s i lo hi h _
    simp [rt, h]
  sort_perm := isort_perm
  sort_sorted := isort_sorted
  selectNth_perm := fun _ l _ => isort_perm l
  selectNth_left := fun _ l _ _ _ _ hi hx hy => sorted_get (isort_sorted l) hi hx hy
  selectNth_right := fun _ l _ _ _ _ hi hx hy => sorted_get (isort_sorted l) hi hy hx
  shuffle_perm := fun _ l => List.reverse_perm l

/-- Runtime with prescribed random numbers: `f seed i` and `g seed i` if inside the requested range, the
lower end of the range otherwise. -/
def rtWith (f g : Nat → Nat → F64) : Rt n where
  draw := fun seed i => seed + i
  uniformIncl := fun seed i lo hi => if F64.le lo hi then
    some (if F64.le lo (f seed i) && F64.le (f seed i) hi then f seed i else lo) else none
  uniformExcl := fun seed i lo hi => if F64.lt lo hi then
    some (if F64.le lo (g seed i) && F64.lt (g seed i) hi then g seed i else lo) else none
  sort := isort
  selectNth := fun _ l => isort l
  shuffle := fun _ l => l.reverse

theorem rtWith_valid (f g : Nat → Nat → F64) : (rtWith f g : Rt n).Valid where
  uniformIncl_mem := by
    intro s i lo hi x h
    unfold rtWith at h
    dsimp only at h
    split at h
    · rename_i hle
      have h' := le_iff.1 hle
      injection h with h
      split at h
      · rename_i hc
        rw [Bool.and_eq_true] at hc
        subst h; exact hc
      · subst h; exact ⟨le_refl_of h'.1, hle⟩
    · cases h
  uniformIncl_total := by
    intro s i lo hi h _
    simp [rtWith, h]
  uniformExcl_mem := by
    intro s i lo hi x h
    unfold rtWith at h
    dsimp only at h
    split at h
    · rename_i hlt
      injection h with h
      split at h
      · rename_i hc
        rw [Bool.and_eq_true] at hc
        subst h; exact hc
      · subst h; exact ⟨le_refl_of (lt_iff.1 hlt).1, hlt⟩
    · cases h
  uniformExcl_total := by
    intro s i lo hi h _
    simp [rtWith, h]
  sort_perm := isort_perm
  sort_sorted := isort_sorted
  selectNth_perm := fun _ l _ => isort_perm l
  selectNth_left := fun _ l _ _ _ _ hi hx hy => sorted_get (isort_sorted l) hi hx hy
  selectNth_right := fun _ l _ _ _ _ hi hx hy => sorted_get (isort_sorted l) hi hy hx
  shuffle_perm := fun _ l => List.reverse_perm l

/-- Scheduler that never splits. -/
def sched : Sched := ⟨fun _ => .leaf, fun _ => .leaf, .leaf, .leaf, []⟩

/-- One-dimensional point. -/
def pt (x : F64) : Pt 1 := fun _ => x

/-- Whole number as a double. -/
def num (k : Nat) : F64 := F64.ofNat k

/-- Local search that stays where it is, with the objective `x`. -/
def stay (_ : SolverType) (_ : SolverConfig) (p : Pt 1) : Except LErr (Sol 1 × Nat) :=
  .ok (⟨p, p 0⟩, 1)

/-- Environment with the given local solver. -/
def env (solve : SolverType → SolverConfig → Pt n → Except LErr (Sol n × Nat)) : Env n where
  rt := rt n
  sched := sched
  solve := solve
  threads := 4
  evalOrder := fun _ => List.range 64
  solveOrder := fun _ => List.range 64
  clock := fun _ => F64.zero
  stamp := fun _ => (F64.zero, "t")
  io := fun _ => none
  cb := fun _ _ b => b
  time := fun k => k
  overflowChecks := false
  checkpointing := true

/-- Minimise `x` over `[1, 4]`. -/
def lin : Problem 1 := ⟨fun p => .ok (p 0), pt (num 1), pt (num 4), []⟩

def params (iterations pop : Nat) (seed : Nat) : Params where
  iterations := iterations
  populationSize := pop
  waitCycle := 2
  thresholdFactor := F64.lit 1 5
  distanceFactor := F64.lit 3 4
  solverType := .cobyla
  solverConfig := .cobyla 300 (F64.lit 1 2) (F64.lit 1 (10 ^ 6)) (F64.lit 1 (10 ^ 8)) F64.zero []
  seed := seed

/-- Minimise `x` over `[1, 4]` subject to `x - 2 >= 0`. -/
def linC : Problem 1 := { lin with constraints := [fun p => (p 0).sub (num 2)] }

/-- Scatter search set up as `OQNLP::run` does. -/
def scat (p : Problem n) (q : Params) (custom : Option (List (Pt n))) : Scatter n :=
  ⟨p, q, [], [], 0, true, custom⟩

/-- Its result, if any. -/
def scatRes (p : Problem n) (q : Params) (custom : Option (List (Pt n))) :
    Option (Scatter.Result n) :=
  match (scat p q custom).run (rt n) sched with
  | .ok r => some r
  | .error _ => none

theorem scatRes_some {p : Problem n} {q : Params} {custom : Option (List (Pt n))}
    {P : Scatter.Result n → Bool} (h : (scatRes p q custom).map P = some true) :
    ∃ r, (scat p q custom).run (rt n) sched = .ok r ∧ P r = true := by
  unfold scatRes at h
  split at h
  · rename_i r hr
    exact ⟨r, hr, by simpa using h⟩
  · cases h

end GS.Witness
