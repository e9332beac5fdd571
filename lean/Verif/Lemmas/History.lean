/- The solution set and the distance filter as functions of the history of local solutions. -/
import Verif.Lemmas.Steps
import Verif.Lemmas.Relax
import Mathlib.Data.List.Induction

namespace GS
open Relation F64
variable {n : Nat}

/-- Local solutions processed, in order. -/
def procs (tr : List (Event n)) : List (Sol n) :=
  tr.filterMap fun e => match e with
    | .processed s _ => some s
    | _ => none

theorem procs_append (a b : List (Event n)) : procs (a ++ b) = procs a ++ procs b := by
  simp [procs]

/-- Solution set after processing a history. -/
def setFold (c : SetCfg n) (st : Option (List (Sol n))) (hist : List (Sol n)) :
    Option (List (Sol n)) :=
  hist.foldl (fun st s => newSet (classify c st s) st s) st

theorem setFold_snoc (c : SetCfg n) (st : Option (List (Sol n))) (hist : List (Sol n)) (s : Sol n) :
    setFold c st (hist ++ [s]) =
      newSet (classify c (setFold c st hist) s) (setFold c st hist) s := by
  simp [setFold, List.foldl_append]

theorem setFold_append (c : SetCfg n) (st : Option (List (Sol n))) (a b : List (Sol n)) :
    setFold c st (a ++ b) = setFold c (setFold c st a) b := by
  simp [setFold, List.foldl_append]

theorem classify_panic {c : SetCfg n} {st : Option (List (Sol n))} {s : Sol n}
    (h : classify c st s = .panic) : st = some [] := by
  unfold classify at h
  split at h
  · cases h
  · split at h
    · cases h
    · rfl
    · dsimp only at h
      split at h
      · cases h
      · split at h <;> cases h

theorem newSet_ne_nil {c : SetCfg n} {st : Option (List (Sol n))} {s : Sol n}
    (h : st ≠ some []) : newSet (classify c st s) st s ≠ some [] := by
  cases hv : classify c st s <;> simp [newSet, h]

theorem setFold_ne_nil {c : SetCfg n} {st : Option (List (Sol n))} (hist : List (Sol n))
    (h : st ≠ some []) : setFold c st hist ≠ some [] := by
  induction hist generalizing st with
  | nil => exact h
  | cons s l ih => exact ih (newSet_ne_nil h)

theorem Opt.process_snd (o : Opt n) (s : Sol n) :
    (o.process s).2 = classify o.setCfg o.solset s := by
  unfold Opt.process; dsimp only; split <;> rfl

theorem Opt.process_solset (o : Opt n) (s : Sol n) :
    (o.process s).1.solset = newSet (classify o.setCfg o.solset s) o.solset s := by
  unfold Opt.process
  dsimp only
  split
  · rename_i h; rw [h]; rfl
  · dsimp only [Opt.mapObs]
    (repeat' split) <;> rfl

theorem Opt.process_dist (o : Opt n) (s : Sol n) (h : o.solset ≠ some []) :
    (o.process s).1.dist = o.dist.add s := by
  unfold Opt.process
  dsimp only
  split
  · rename_i hp; exact absurd (classify_panic hp) h
  · dsimp only [Opt.mapObs]
    (repeat' split) <;> rfl

/-- State determined by the history of processed solutions. -/
structure HistInv (o : Opt n) (m : M n) : Prop where
  cfg : SameCfg o m.opt
  solset : m.opt.solset = setFold o.setCfg o.solset (procs m.trace)
  dist : m.opt.dist.solutions = o.dist.solutions ++ procs m.trace
  genuine : ∀ s v, Event.processed s v ∈ m.trace →
    v ≠ .panic ∧ ∃ it p, Event.search it p (.ok s) ∈ m.trace
  inset : ∀ s ∈ procs m.trace, ∃ it p, Event.search it p (.ok s) ∈ m.trace

theorem procs_plain {e : Event n} (h : e.plain = true) : procs [e] = [] := by
  cases e <;> simp_all [procs, Event.plain]

theorem histInv {env : Env n} {o : Opt n} {u sv : Nat} {m : M n} (hne : o.solset ≠ some [])
    (h : Reach env ⟨o, u, sv, []⟩ m) : HistInv o m := by
  induction h with
  | refl => exact ⟨SameCfg.refl o, by simp [setFold, procs], by simp [procs], by simp,
      by simp [procs]⟩
  | tail hr hp ih =>
    obtain ⟨h1, h2, h3, h4, h5⟩ := ih
    cases hp
    case opt m o' hc hs hd =>
      exact ⟨h1.trans hc, hs.trans h2, by simpa [hd] using h3, h4, h5⟩
    case uc m k => exact ⟨h1, h2, h3, h4, h5⟩
    case log m e he _ =>
      have hpr : procs (m.trace ++ [e]) = procs m.trace := by
        rw [procs_append, procs_plain he, List.append_nil]
      refine ⟨h1, by simpa [hpr] using h2, by simpa [hpr] using h3, ?_, ?_⟩
      · intro s v hsv
        simp only [List.mem_append, List.mem_singleton] at hsv ⊢
        rcases hsv with hsv | hsv
        · obtain ⟨a, it, p, b⟩ := h4 s v hsv
          exact ⟨a, it, p, Or.inl b⟩
        · subst hsv; simp [Event.plain] at he
      · intro s hs
        rw [hpr] at hs
        obtain ⟨it, p, b⟩ := h5 s hs
        exact ⟨it, p, by simp [b]⟩
    case save m hio =>
      have hpr : procs (m.trace ++ [Event.saved m.opt.curIter
          (m.opt.createCkpt (env.stamp m.saves))]) = procs m.trace := by
        rw [procs_append]; simp [procs]
      refine ⟨h1, by simpa [hpr] using h2, by simpa [hpr] using h3, ?_, ?_⟩
      · intro s v hsv
        simp only [List.mem_append, List.mem_singleton, reduceCtorEq, or_false] at hsv ⊢
        exact h4 s v hsv
      · intro s hs
        rw [hpr] at hs
        obtain ⟨it, p, b⟩ := h5 s hs
        exact ⟨it, p, by simp [b]⟩
    case saveFail m hio =>
      have hpr : procs (m.trace ++ [Event.saveFailed m.opt.curIter
          (m.opt.createCkpt (env.stamp m.saves))]) = procs m.trace := by
        rw [procs_append]; simp [procs]
      refine ⟨h1, by simpa [hpr] using h2, by simpa [hpr] using h3, ?_, ?_⟩
      · intro s v hsv
        simp only [List.mem_append, List.mem_singleton, reduceCtorEq, or_false] at hsv ⊢
        exact h4 s v hsv
      · intro s hs
        rw [hpr] at hs
        obtain ⟨it, p, b⟩ := h5 s hs
        exact ⟨it, p, by simp [b]⟩
    case proc m s hs =>
      have hpr : ∀ v, procs (m.trace ++ [Event.processed s v]) = procs m.trace ++ [s] := by
        intro v; rw [procs_append]; simp [procs]
      have hnn : m.opt.solset ≠ some [] := by rw [h2]; exact setFold_ne_nil _ hne
      refine ⟨h1.trans (Opt.process_cfg _ _), ?_, ?_, ?_, ?_⟩
      · simp only [hpr]
        rw [setFold_snoc, ← h2, Opt.process_solset, h1.setCfg]
      · simp only [hpr]
        rw [Opt.process_dist _ _ hnn, DistanceFilter.add, ← List.append_assoc, ← h3]
      · intro s' v' hsv
        simp only [List.mem_append, List.mem_singleton] at hsv ⊢
        rcases hsv with hsv | hsv
        · obtain ⟨a, it, p, b⟩ := h4 s' v' hsv
          exact ⟨a, it, p, Or.inl b⟩
        · injection hsv with e1 e2
          subst e1; subst e2
          refine ⟨?_, ?_⟩
          · rw [Opt.process_snd]
            intro hc
            exact hnn (classify_panic hc)
          · obtain ⟨it, p, b⟩ := hs
            exact ⟨it, p, Or.inl b⟩
      · intro s' hs'
        simp only [hpr, List.mem_append, List.mem_singleton] at hs'
        rcases hs' with hs' | hs'
        · obtain ⟨it, p, b⟩ := h5 s' hs'
          exact ⟨it, p, by simp [b]⟩
        · subst hs'
          obtain ⟨it, p, b⟩ := hs
          exact ⟨it, p, by simp [b]⟩

/-- Members of the set come from the initial set or from the history. -/
theorem setFold_mem {c : SetCfg n} {st : Option (List (Sol n))} {hist : List (Sol n)}
    {set : List (Sol n)} (h : setFold c st hist = some set) :
    ∀ s ∈ set, s ∈ hist ∨ ∃ l, st = some l ∧ s ∈ l := by
  induction hist using List.reverseRecOn generalizing set with
  | nil => intro s hs; exact Or.inr ⟨set, h, hs⟩
  | append_singleton hist x ih =>
    rw [setFold_snoc] at h
    intro s hs
    have old : ∀ set', setFold c st hist = some set' → s ∈ set' →
        s ∈ hist ++ [x] ∨ ∃ l, st = some l ∧ s ∈ l := by
      intro set' h' hs'
      rcases ih h' s hs' with h1 | h1
      · left; simp [h1]
      · right; exact h1
    cases hv : classify c (setFold c st hist) x <;> rw [hv] at h <;> simp only [newSet] at h
    case first | newBest =>
      injection h with h; subst h
      simp at hs; subst hs; left; simp
    case added =>
      injection h with h; subst h
      rw [List.mem_append] at hs
      rcases hs with hs | hs
      · cases hset : setFold c st hist with
        | none => rw [hset] at hs; simp at hs
        | some l => rw [hset] at hs; exact old l hset hs
      · simp at hs; subst hs; left; simp
    all_goals exact old set h hs

end GS
