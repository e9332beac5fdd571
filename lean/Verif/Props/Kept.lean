/- C87: which of the local solutions found are returned. -/
import Verif.Props.Tolerance

namespace GS.Props
open GS F64
variable {n : Nat}

/-- `tl` lists, in order, the solutions of `post` that belong behind the first member `hd`: those that are
admissible, within tolerance of `hd` and apart from `hd` and everything kept before. -/
inductive KeptBehind (ok : Sol n → Prop) (absTol relTol factor : F64) (hd : Sol n) :
    List (Sol n) → List (Sol n) → Prop
  | start : KeptBehind ok absTol relTol factor hd [] []
  | keep (post tl : List (Sol n)) (s : Sol n) : KeptBehind ok absTol relTol factor hd post tl →
    ok s → withinTol absTol relTol s.objective hd.objective → (∀ t ∈ hd :: tl, apart factor s t) →
    KeptBehind ok absTol relTol factor hd (post ++ [s]) (tl ++ [s])
  | skip (post tl : List (Sol n)) (s : Sol n) : KeptBehind ok absTol relTol factor hd post tl →
    ¬ (ok s ∧ withinTol absTol relTol s.objective hd.objective ∧ ∀ t ∈ hd :: tl, apart factor s t) →
    KeptBehind ok absTol relTol factor hd (post ++ [s]) tl

theorem KeptBehind.sublist {ok : Sol n → Prop} {a r f : F64} {hd : Sol n} {post tl : List (Sol n)}
    (h : KeptBehind ok a r f hd post tl) : tl.Sublist post := by
  induction h with
  | start => exact List.Sublist.slnil
  | keep post tl s _ _ _ _ ih => exact ih.append (List.Sublist.refl _)
  | skip post tl s _ _ ih => exact ih.trans (List.sublist_append_left _ _)

theorem KeptBehind.covers {ok : Sol n → Prop} {a r f : F64} {hd : Sol n} {post tl : List (Sol n)}
    (h : KeptBehind ok a r f hd post tl) : ∀ s ∈ post, ok s → withinTol a r s.objective hd.objective →
      s ∈ tl ∨ ∃ t ∈ hd :: tl, ¬ apart f s t := by
  induction h with
  | start => intro s hs; cases hs
  | keep post tl x _ _ _ _ ih =>
    intro s hs ho hw
    rcases List.mem_append.1 hs with hs | hs
    · rcases ih s hs ho hw with h | ⟨t, ht, h⟩
      · exact Or.inl (List.mem_append_left _ h)
      · exact Or.inr ⟨t, by
          rcases List.mem_cons.1 ht with h | h
          · exact List.mem_cons.2 (Or.inl h)
          · exact List.mem_cons.2 (Or.inr (List.mem_append_left _ h)), h⟩
    · exact Or.inl (List.mem_append_right _ hs)
  | skip post tl x _ hn ih =>
    intro s hs ho hw
    rcases List.mem_append.1 hs with hs | hs
    · exact ih s hs ho hw
    · rw [List.mem_singleton] at hs
      subst hs
      right
      by_contra hc
      exact hn ⟨ho, hw, fun t ht => by
        by_contra h
        exact hc ⟨t, ht, h⟩⟩

theorem classify_spec (c : SetCfg n) (hd : Sol n) (tl : List (Sol n)) (s : Sol n) :
    let ok := c.exclude = true → withinBounds c.problem s.point = true
    (¬ ok ∧ classify c (some (hd :: tl)) s = .outOfBounds) ∨
    (ok ∧ significantlyBetter c.absTol c.relTol s.objective hd.objective = true ∧
      classify c (some (hd :: tl)) s = .newBest) ∨
    (ok ∧ significantlyBetter c.absTol c.relTol s.objective hd.objective = false ∧
      withinTol c.absTol c.relTol s.objective hd.objective ∧
      (∀ t ∈ hd :: tl, apart c.distanceFactor s t) ∧ classify c (some (hd :: tl)) s = .added) ∨
    (ok ∧ significantlyBetter c.absTol c.relTol s.objective hd.objective = false ∧
      ¬ (withinTol c.absTol c.relTol s.objective hd.objective ∧
        ∀ t ∈ hd :: tl, apart c.distanceFactor s t) ∧ classify c (some (hd :: tl)) s = .dropped) := by
  intro ok
  have hdup : isDuplicate c.distanceFactor s (hd :: tl) = false ↔
      ∀ t ∈ hd :: tl, apart c.distanceFactor s t := by
    unfold isDuplicate apart
    rw [List.any_eq_false]
    simp only [Bool.not_eq_true]
  by_cases hex : (c.exclude && !withinBounds c.problem s.point) = true
  · left
    refine ⟨?_, by unfold classify; rw [if_pos hex]⟩
    intro ho
    simp only [Bool.and_eq_true, Bool.not_eq_true'] at hex
    rw [ho hex.1] at hex
    cases hex.2
  · have ho : ok := by
      intro h
      rw [h] at hex
      simpa using hex
    have e : classify c (some (hd :: tl)) s =
        if significantlyBetter c.absTol c.relTol s.objective hd.objective then .newBest
        else if F64.le (s.objective.sub hd.objective).abs
            (tolerance c.absTol c.relTol s.objective hd.objective)
          && !(isDuplicate c.distanceFactor s (hd :: tl)) then .added else .dropped := by
      unfold classify; rw [if_neg hex]; rfl
    right
    rw [e]
    cases hb : significantlyBetter c.absTol c.relTol s.objective hd.objective with
    | true => exact Or.inl ⟨ho, rfl, rfl⟩
    | false =>
      right
      by_cases hk : withinTol c.absTol c.relTol s.objective hd.objective ∧
          ∀ t ∈ hd :: tl, apart c.distanceFactor s t
      · refine Or.inl ⟨ho, rfl, hk.1, hk.2, ?_⟩
        have h1 : F64.le (s.objective.sub hd.objective).abs
            (tolerance c.absTol c.relTol s.objective hd.objective) = true := hk.1
        rw [h1, hdup.2 hk.2]
        rfl
      · refine Or.inr ⟨ho, rfl, hk, ?_⟩
        rw [if_neg (by simp), if_neg]
        intro hc
        rw [Bool.and_eq_true, Bool.not_eq_true'] at hc
        exact hk ⟨hc.1, hdup.1 hc.2⟩

/-- The set is the outcome of the solutions processed since its first member came in. -/
def Explains (ok : Sol n → Prop) (absTol relTol factor : F64) (hist set : List (Sol n)) : Prop :=
  ∃ pre hd post tl, hist = pre ++ hd :: post ∧ set = hd :: tl ∧ ok hd ∧
    (∀ s ∈ post, ok s → significantlyBetter absTol relTol s.objective hd.objective = false) ∧
    KeptBehind ok absTol relTol factor hd post tl

theorem explains_fold (c : SetCfg n) (hist : List (Sol n)) :
    (setFold c none hist = none → ∀ s ∈ hist, ¬ (c.exclude = true → withinBounds c.problem s.point = true)) ∧
    ∀ set, setFold c none hist = some set →
      Explains (fun s => c.exclude = true → withinBounds c.problem s.point = true)
        c.absTol c.relTol c.distanceFactor hist set := by
  induction hist using List.reverseRecOn with
  | nil => exact ⟨by simp, fun set h => by cases h⟩
  | append_singleton l s ih =>
    obtain ⟨i1, i2⟩ := ih
    rw [setFold_snoc]
    cases hset : setFold c none l with
    | none =>
      by_cases hex : (c.exclude && !withinBounds c.problem s.point) = true
      · have hv : classify c none s = .outOfBounds := by unfold classify; rw [if_pos hex]
        rw [hv]
        refine ⟨fun _ x hx => ?_, fun set h => by cases h⟩
        rcases List.mem_append.1 hx with hx | hx
        · exact i1 hset x hx
        · rw [List.mem_singleton] at hx
          subst hx
          intro ho
          simp only [Bool.and_eq_true, Bool.not_eq_true'] at hex
          rw [ho hex.1] at hex
          cases hex.2
      · have hv : classify c none s = .first := by unfold classify; rw [if_neg hex]
        rw [hv]
        refine ⟨(fun h => by cases h), fun set h => ?_⟩
        injection h with h
        refine ⟨l, s, [], [], by simp, h.symm, ?_, by simp, .start⟩
        intro h
        rw [h] at hex
        simpa using hex
    | some set0 =>
      obtain ⟨pre, hd, post, tl, e1, e2, e3, e4, e5⟩ := i2 set0 hset
      have e0 : l ++ [s] = pre ++ hd :: (post ++ [s]) := by rw [e1]; simp
      subst e2
      rcases classify_spec c hd tl s with ⟨h1, hv⟩ | ⟨h1, h2, hv⟩ | ⟨h1, h2, h3, h4, hv⟩ | ⟨h1, h2, h3, hv⟩ <;>
        rw [hv] <;> (refine ⟨(fun h => by cases h), fun set h => ?_⟩) <;> injection h with h
      · refine ⟨pre, hd, post ++ [s], tl, e0, h.symm, e3, ?_, e5.skip _ _ _ fun hk => h1 hk.1⟩
        intro x hx ho
        rcases List.mem_append.1 hx with hx | hx
        · exact e4 x hx ho
        · rw [List.mem_singleton] at hx; subst hx; exact absurd ho h1
      · exact ⟨l, s, [], [], by simp, h.symm, h1, by simp, .start⟩
      · refine ⟨pre, hd, post ++ [s], tl ++ [s], e0, by rw [← h]; rfl, e3, ?_, e5.keep _ _ _ h1 h3 h4⟩
        intro x hx ho
        rcases List.mem_append.1 hx with hx | hx
        · exact e4 x hx ho
        · rw [List.mem_singleton] at hx; subst hx; exact h2
      · refine ⟨pre, hd, post ++ [s], tl, e0, h.symm, e3, ?_, e5.skip _ _ _ fun hk => h3 hk.2⟩
        intro x hx ho
        rcases List.mem_append.1 hx with hx | hx
        · exact e4 x hx ho
        · rw [List.mem_singleton] at hx; subst hx; exact h2

/-- C87 (partial: the solutions processed since the first member was found), for every sequence of
local solutions: the set consists of the first member and exactly those solutions processed after it
that are admissible, within tolerance of it and apart from everything kept before them; none of them is
significantly better than the first member.  Missing: the solutions processed before the first member
was found are all gone, even those within tolerance of it, see `C87_violated`. -/
theorem C87_history_partial (o : Opt n) (hist set : List (Sol n)) (hnew : o.solset = none)
    (h : (afterAll o hist).solset = some set) :
    Explains (admissible o) o.absTol o.relTol o.params.distanceFactor hist set := by
  rw [afterAll_solset, hnew] at h
  exact (explains_fold o.setCfg hist).2 set h

/-- C87 (partial, as above), for runs: the returned set is explained by the local solutions of the run. -/
theorem C87_run_partial (env : Env n) (o : Opt n) (set : List (Sol n)) (hnew : o.solset = none)
    (h : (run env o none).result = .ok set) :
    Explains (admissible o) o.absTol o.relTol o.params.distanceFactor (processedBy env o none) set :=
  C87_history_partial o _ set hnew (C06_run_is_history env o set hnew h)

/-- C87 (partial, as above), in the words of the property: every admissible local solution found after
the first member and within tolerance of it is returned, or a solution not apart from it is. -/
theorem C87_complete_partial (env : Env n) (o : Opt n) (set : List (Sol n)) (hnew : o.solset = none)
    (h : (run env o none).result = .ok set) :
    ∃ pre hd post tl, processedBy env o none = pre ++ hd :: post ∧ set = hd :: tl ∧
      ∀ s ∈ post, admissible o s → withinTol o.absTol o.relTol s.objective hd.objective →
        s ∈ set ∨ ∃ t ∈ set, ¬ apart o.params.distanceFactor s t := by
  obtain ⟨pre, hd, post, tl, e1, rfl, _, _, e5⟩ := C87_run_partial env o set hnew h
  refine ⟨pre, hd, post, tl, e1, rfl, fun s hs ho hw => ?_⟩
  rcases e5.covers s hs ho hw with h | h
  · exact Or.inl (List.mem_cons_of_mem _ h)
  · exact Or.inr h

open Witness

/-- Height 3 except for two valleys: 2 at 15/4 and 3/2 at 9/4. -/
def valley : Problem 1 :=
  ⟨fun p => .ok (if p 0 = F64.lit 15 4 then num 2 else if p 0 = F64.lit 9 4 then F64.lit 3 2 else num 3),
    pt (num 1), pt (num 4), []⟩

/-- Local search that finds the valleys. -/
def descend (_ : SolverType) (_ : SolverConfig) (p : Pt 1) : Except LErr (Sol 1 × Nat) :=
  if p 0 = num 4 then .ok (⟨pt (F64.lit 15 4), num 2⟩, 1)
  else if p 0 = F64.lit 5 2 then .ok (⟨pt (F64.lit 9 4), F64.lit 3 2⟩, 1)
  else .ok (⟨p, num 3⟩, 1)

theorem valleys_ok : (Opt.new valley (params 5 6 0)).toOption.isSome = true := by decide +kernel

/-- A sequential run with an absolute tolerance of 6/5. -/
def valleys : Opt 1 := ((mk valley (params 5 6 0) valleys_ok).setParallel false).withTolerance
  (F64.lit 6 5) F64.zero

theorem valleys_built : Built valleys :=
  Built.tolerance _ _ (Built.parallel false (mk_built valleys_ok))

theorem valleys_run : ∃ set, (run (env descend) valleys none).result = .ok set ∧
    set = [⟨pt (F64.lit 9 4), F64.lit 3 2⟩] ∧ processedBy (env descend) valleys none =
      [⟨pt (num 1), num 3⟩, ⟨pt (F64.lit 15 4), num 2⟩, ⟨pt (F64.lit 9 4), F64.lit 3 2⟩] := by
  have key : (match (run (env descend) valleys none).result with
    | .ok set => decide (set = [⟨pt (F64.lit 9 4), F64.lit 3 2⟩]) &&
      decide (processedBy (env descend) valleys none =
        [⟨pt (num 1), num 3⟩, ⟨pt (F64.lit 15 4), num 2⟩, ⟨pt (F64.lit 9 4), F64.lit 3 2⟩])
    | .error _ => false) = true := by decide +kernel
  split at key
  · rename_i set h
    rw [Bool.and_eq_true, decide_eq_true_iff, decide_eq_true_iff] at key
    exact ⟨set, h, key⟩
  · cases key

/-- C87 is violated: with an absolute tolerance of 1.2 the objectives 3, 2 and 1.5 are found, in this
order, at points far from each other.  The last one replaces the whole set because it is more than the
tolerance below the first member 3; the second one, which is within the tolerance of the returned
solution and far from it, is not returned. -/
theorem C87_violated : ∃ (env : Env 1) (o : Opt 1) (set : List (Sol 1)) (hd s : Sol 1), Built o ∧
    (run env o none).result = .ok set ∧ set.head? = some hd ∧ s ∈ processedBy env o none ∧
    admissible o s ∧ withinTol o.absTol o.relTol s.objective hd.objective ∧
    (∀ t ∈ set, apart o.params.distanceFactor s t) ∧ s ∉ set := by
  obtain ⟨set, h1, rfl, h3⟩ := valleys_run
  have ha : valleys.absTol = F64.lit 6 5 := rfl
  have hr : valleys.relTol = F64.zero := rfl
  have hd : valleys.params.distanceFactor = F64.lit 3 4 := by decide +kernel
  refine ⟨env descend, valleys, _, _, ⟨pt (F64.lit 15 4), num 2⟩,
    valleys_built, h1, rfl, by rw [h3]; simp, ?_, ?_, ?_, ?_⟩
  · intro h
    have : valleys.exclude = false := by decide +kernel
    rw [this] at h; cases h
  · rw [ha, hr]
    unfold withinTol
    decide +kernel
  · rw [hd]
    intro t ht
    rw [List.mem_singleton] at ht
    subst ht
    unfold apart
    decide +kernel
  · intro h
    rw [List.mem_singleton] at h
    have := congrArg Sol.objective h
    revert this
    decide +kernel

/-- The hypotheses of the theorems on this run. -/
example : valleys.solset = none ∧ ∃ set, (run (env descend) valleys none).result = .ok set := by
  obtain ⟨set, h, _⟩ := valleys_run
  exact ⟨valleys_built.unused.solset, set, h⟩

end GS.Props
