/- C04-C06, C09, C10: the solution set. -/
import Verif.Lemmas.Built
import Verif.Lemmas.Demo
import Verif.Lemmas.History
import Verif.Lemmas.Reduce
import Verif.Lemmas.Witness
import Verif.Lemmas.Tolerance

namespace GS.Props
open GS F64
variable {n : Nat}

/-! ### C04: `best_solution` -/

/-- C04: `None` exactly for the empty set. -/
theorem C04_none_iff (set : List (Sol n)) : bestSolution set = none ↔ set = [] :=
  reduceSeq_none _

/-- C04: the returned solution is the first one that no member beats in the total order. -/
theorem C04_first_minimum (set : List (Sol n)) (b : Sol n) (h : bestSolution set = some b) :
    ∃ i : Nat, set[i]? = some b ∧
      (∀ (j : Nat) s, set[j]? = some s → F64.tlt s.objective b.objective = false) ∧
      ∀ (j : Nat) s, j < i → set[j]? = some s → F64.tlt b.objective s.objective = true := by
  obtain ⟨i, h1, h2, h3⟩ := reduceSeq_min Sol.objective h
  refine ⟨i, h1, fun j s hs => ?_, fun j s hj hs => ?_⟩
  · have := h2 j s hs
    rw [Bool.eq_false_iff]
    intro hc
    have := tlt_iff.1 hc
    omega
  · exact tlt_iff.2 (h3 j s hj hs)

/-- C04: the returned objective is `<=` every objective, if the objectives are not NaN. -/
theorem C04_le_all (set : List (Sol n)) (b : Sol n) (h : bestSolution set = some b)
    (hn : ∀ s ∈ set, s.objective.isNaN = false) :
    ∀ s ∈ set, F64.le b.objective s.objective = true := by
  obtain ⟨i, h1, h2, _⟩ := reduceSeq_min Sol.objective h
  intro s hs
  obtain ⟨j, hj, rfl⟩ := List.getElem_of_mem hs
  have hb := hn b (List.mem_of_getElem? h1)
  exact le_of_tle hb (hn _ hs) (tle_iff.2 (h2 j _ (List.getElem?_eq_getElem hj)))

/-- C04: the returned objective is `<=` every objective that is a number, if there is one, unless some
objective is a NaN with the sign bit set (those come before all numbers in the total order). -/
theorem C04_le_numbers (set : List (Sol n)) (b : Sol n) (h : bestSolution set = some b)
    (hn : ∀ s ∈ set, s.objective.isNaN = true → s.objective.neg = false) :
    ∀ s ∈ set, s.objective.isNaN = false → F64.le b.objective s.objective = true := by
  obtain ⟨i, h1, h2, _⟩ := reduceSeq_min Sol.objective h
  intro s hs hsn
  obtain ⟨j, hj, rfl⟩ := List.getElem_of_mem hs
  have hle := h2 j _ (List.getElem?_eq_getElem hj)
  refine le_of_tle ?_ hsn (tle_iff.2 hle)
  cases hb : b.objective.isNaN with
  | false => rfl
  | true =>
    exfalso
    have hneg := hn b (List.mem_of_getElem? h1) hb
    simp only [F64.isNaN, decide_eq_true_eq, decide_eq_false_iff_not] at hb hsn
    simp only [F64.tkey, hneg, Bool.false_eq_true, if_false] at hle
    split at hle <;> omega

/-- The condition is needed: a NaN with the sign bit set (what `0.0 / 0.0` gives on x86) is returned as the
best solution although another member has a number. -/
theorem C04_negative_nan : ∃ (set : List (Sol 1)) (b s : Sol 1), bestSolution set = some b ∧ s ∈ set ∧
    s.objective.isNaN = false ∧ b.objective.isNaN = true ∧ F64.le b.objective s.objective = false :=
  ⟨[⟨fun _ => F64.one, F64.one⟩, ⟨fun _ => F64.two, F64.fneg F64.nan⟩], ⟨fun _ => F64.two, F64.fneg F64.nan⟩,
    ⟨fun _ => F64.one, F64.one⟩, by decide +kernel, by simp, by decide, by decide, by decide⟩

example : bestSolution [(⟨fun _ => F64.one, F64.nan⟩ : Sol 1), ⟨fun _ => F64.two, F64.one⟩] =
    some ⟨fun _ => F64.two, F64.one⟩ ∧ F64.nan.isNaN = true ∧ F64.nan.neg = false := by decide +kernel

example : bestSolution [(⟨fun _ => F64.one, F64.two⟩ : Sol 1), ⟨fun _ => F64.two, F64.one⟩,
    ⟨fun _ => F64.zero, F64.one⟩] = some ⟨fun _ => F64.two, F64.one⟩ := by decide +kernel

/-! ### The history of a run -/

/-- The local solutions processed during a run, in order. -/
def processedBy (env : Env n) (o : Opt n) (loaded : Option (Except CkErr (Ckpt n))) : List (Sol n) :=
  procs (run env o loaded).final.trace

/-- The optimizer after it processed a list of local solutions, one after another. -/
def afterAll (o : Opt n) (hist : List (Sol n)) : Opt n :=
  hist.foldl (fun o s => (o.process s).1) o

theorem afterAll_snoc (o : Opt n) (hist : List (Sol n)) (s : Sol n) :
    afterAll o (hist ++ [s]) = ((afterAll o hist).process s).1 := by
  simp [afterAll, List.foldl_append]

theorem afterAll_append (o : Opt n) (a b : List (Sol n)) :
    afterAll o (a ++ b) = afterAll (afterAll o a) b := by
  simp [afterAll, List.foldl_append]

theorem afterAll_cfg (o : Opt n) (hist : List (Sol n)) : SameCfg o (afterAll o hist) := by
  induction hist generalizing o with
  | nil => exact SameCfg.refl o
  | cons s l ih => exact (Opt.process_cfg o s).trans (ih _)

theorem afterAll_solset (o : Opt n) (hist : List (Sol n)) :
    (afterAll o hist).solset = setFold o.setCfg o.solset hist := by
  induction hist using List.reverseRecOn with
  | nil => rfl
  | append_singleton l s ih =>
    rw [afterAll_snoc, Opt.process_solset, ih, (afterAll_cfg o l).setCfg, setFold_snoc]

/-- A run that starts fresh on an optimizer without solutions (as `OQNLP::new` builds it). -/
theorem fresh_start {env : Env n} {o : Opt n} {set : List (Sol n)}
    (h : (run env o none).result = .ok set) :
    ∃ o1, SameCfg o o1 ∧ o1.solset = o.solset ∧ o1.dist = o.dist ∧
      HistInv o1 (run env o none).final ∨ o.solset = some [] := by
  obtain ⟨_, o1, r, hs⟩ := run_ok h
  have he := (startOpt_fresh hs).2
  have h1 : SameCfg o o1 ∧ o1.solset = o.solset ∧ o1.dist = o.dist := by
    subst he; exact ⟨by constructor <;> rfl, rfl, rfl⟩
  by_cases hne : o.solset = some []
  · exact ⟨o1, Or.inr hne⟩
  · exact ⟨o1, Or.inl ⟨h1.1, h1.2.1, h1.2.2,
      histInv (by rw [h1.2.1]; exact hne) (run_reach env o none hs)⟩⟩

/-! ### C05: contents of the solution set -/

/-- `|a - b| <= max(abs_tol, rel_tol * max(|a|, |b|))` computed in doubles. -/
def withinTol (absTol relTol a b : F64) : Prop :=
  F64.le ((a.sub b).abs) (absTol.max (relTol.mul (a.abs.max b.abs))) = true

/-- The squared distance of the two points is not below the squared distance factor. -/
def apart (factor : F64) (newer older : Sol n) : Prop :=
  F64.lt (dist2 newer.point older.point) (factor.mul factor) = false

/-- What a user may rely on about a solution set. -/
structure GoodSet (absTol relTol factor : F64) (set : List (Sol n)) : Prop where
  nonempty : set ≠ []
  near : ∀ hd ∈ set.head?, ∀ s ∈ set.tail, withinTol absTol relTol s.objective hd.objective
  distinct : set.Pairwise fun older newer => apart factor newer older

theorem goodSet_single (a r f : F64) (s : Sol n) : GoodSet a r f [s] :=
  ⟨by simp, by simp, by simp⟩

theorem goodSet_step {c : SetCfg n} {st : Option (List (Sol n))} {s : Sol n}
    (h : ∀ set, st = some set → GoodSet c.absTol c.relTol c.distanceFactor set) :
    ∀ set, newSet (classify c st s) st s = some set →
      GoodSet c.absTol c.relTol c.distanceFactor set := by
  intro set hs
  cases hv : classify c st s <;> rw [hv] at hs <;> simp only [newSet] at hs
  case first | newBest => injection hs with hs; subst hs; exact goodSet_single _ _ _ _
  case added =>
    injection hs with hs; subst hs
    unfold classify at hv
    split at hv
    · cases hv
    · split at hv
      · cases hv
      · cases hv
      · rename_i hd tl
        dsimp only at hv
        split at hv
        · cases hv
        · split at hv
          · rename_i hcond
            simp only [Bool.and_eq_true, Bool.not_eq_true'] at hcond
            obtain ⟨h1, h2, h3⟩ := h _ rfl
            refine ⟨by simp, ?_, ?_⟩
            · intro a ha b hb
              simp only [Option.getD_some, List.cons_append, List.head?_cons, Option.mem_def,
                Option.some.injEq] at ha
              subst ha
              simp only [Option.getD_some, List.cons_append, List.tail_cons, List.mem_append,
                List.mem_singleton] at hb
              rcases hb with hb | hb
              · exact h2 hd (by simp) b (by simpa using hb)
              · subst hb; exact hcond.1
            · simp only [Option.getD_some]
              rw [List.pairwise_append]
              refine ⟨h3, by simp, ?_⟩
              intro t ht b hb
              simp only [List.mem_singleton] at hb
              subst hb
              have := hcond.2
              unfold isDuplicate at this
              rw [List.any_eq_false] at this
              simpa [apart] using this t ht
          · cases hv
  all_goals exact h set hs

theorem goodSet_fold {c : SetCfg n} {st : Option (List (Sol n))} (hist : List (Sol n))
    (h : ∀ set, st = some set → GoodSet c.absTol c.relTol c.distanceFactor set) :
    ∀ set, setFold c st hist = some set → GoodSet c.absTol c.relTol c.distanceFactor set := by
  induction hist using List.reverseRecOn with
  | nil => exact h
  | append_singleton l s ih => rw [setFold_snoc]; exact goodSet_step ih

/-- C05, for every sequence of processed local solutions: starting without solutions (or with a good
set, e.g. from a checkpoint), the set stays good and its members come from the sequence. -/
theorem C05_history (o : Opt n) (hist : List (Sol n)) (set : List (Sol n))
    (h0 : ∀ set0, o.solset = some set0 → GoodSet o.absTol o.relTol o.params.distanceFactor set0)
    (h : (afterAll o hist).solset = some set) :
    GoodSet o.absTol o.relTol o.params.distanceFactor set ∧
      ∀ s ∈ set, s ∈ hist ∨ ∃ l, o.solset = some l ∧ s ∈ l := by
  rw [afterAll_solset] at h
  exact ⟨goodSet_fold (c := o.setCfg) hist h0 set h, setFold_mem h⟩

/-- C05, for runs: the returned set is good and every member is a result of the local solver. -/
theorem C05_run (env : Env n) (o : Opt n) (set : List (Sol n)) (hnew : o.solset = none)
    (h : (run env o none).result = .ok set) :
    GoodSet o.absTol o.relTol o.params.distanceFactor set ∧
      ∀ s ∈ set, ∃ it p, Event.search it p (.ok s) ∈ (run env o none).final.trace := by
  have hok := run_ok h
  obtain ⟨o1, hh | hh⟩ := fresh_start h
  · obtain ⟨hc, hs, _, hi⟩ := hh
    have he := hi.solset
    rw [hok.1, hs, hnew, hc.setCfg] at he
    refine ⟨goodSet_fold (c := o.setCfg) _ (by simp) set he.symm, ?_⟩
    intro s hs'
    rcases setFold_mem he.symm s hs' with h1 | ⟨l, h1, _⟩
    · exact hi.inset s h1
    · cases h1
  · rw [hnew] at hh; cases hh

/-- C05, for resumed runs: a checkpoint with a good set leads to a good set, whose members are
results of the local solver or come from the checkpoint. -/
theorem C05_resumed (env : Env n) (o : Opt n) (c : Ckpt n) (cfg : CkptConfig) (set : List (Sol n))
    (hcfg : o.ckpt = some cfg) (hauto : cfg.autoResume = true)
    (hgood : ∀ set0, c.solutionSet = some set0 →
      GoodSet c.absTol c.relTol c.params.distanceFactor set0)
    (h : (run env o (some (.ok c))).result = .ok set) :
    GoodSet c.absTol c.relTol c.params.distanceFactor set ∧
      ∀ s ∈ set, (∃ it p, Event.search it p (.ok s) ∈ (run env o (some (.ok c))).final.trace) ∨
        ∃ l, c.solutionSet = some l ∧ s ∈ l := by
  obtain ⟨hfin, o1, r, hs⟩ := run_ok h
  have hre := run_reach env o _ hs
  have e : o1.setCfg = ⟨o.problem, c.excludeOutOfBounds, c.absTol, c.relTol,
      c.params.distanceFactor⟩ ∧ o1.solset = c.solutionSet := by
    unfold startOpt Opt.tryResume at hs
    simp only [Act.obsStart, Act.modify, Opt.mapObs, hcfg, hauto, if_true] at hs
    injection hs with hs
    injection hs with hs
    subst hs
    exact ⟨rfl, rfl⟩
  have hne : o1.solset ≠ some [] := by
    rw [e.2]
    intro hc
    exact (hgood [] hc).nonempty rfl
  have hi := histInv hne hre
  have he := hi.solset
  rw [hfin, e.2] at he
  refine ⟨?_, ?_⟩
  · have := goodSet_fold (c := o1.setCfg) (procs (run env o (some (.ok c))).final.trace)
      (st := c.solutionSet) (by rw [e.1]; exact hgood) set he.symm
    rw [e.1] at this
    exact this
  · intro s hs'
    rcases setFold_mem he.symm s hs' with h1 | h1
    · exact Or.inl (hi.inset s h1)
    · exact Or.inr h1

/-- C05, for runs: every member of the returned set is what the local solver named in the parameters returned
for some starting point. -/
theorem C05_members {env : Env n} {o : Opt n} {loaded : Option (Except CkErr (Ckpt n))} {set : List (Sol n)}
    (hb : Built o) (hf : Fresh o loaded) (h : (run env o loaded).result = .ok set) :
    ∀ s ∈ set, ∃ p k, env.solve o.params.solverType o.params.solverConfig p = .ok (s, k) := by
  obtain ⟨hfin, _⟩ := run_ok h
  rw [run_fresh env o loaded hf, finish_final] at hfin
  have hre := Steps.body env false ⟨started env o, 0, 0, []⟩
  have hu := hb.unused
  have hne : (started env o).solset ≠ some [] := by
    show o.solset ≠ _
    rw [hu.solset]; simp
  have hi := histInv hne hre
  have he := hi.solset
  rw [hfin, show (started env o).solset = none from hu.solset] at he
  intro s hs
  rcases setFold_mem he.symm s hs with h1 | ⟨l, h1, _⟩
  · obtain ⟨it, p, hm⟩ := hi.inset s h1
    have hg : Except.ok s = (env.solve o.lsType o.lsConfig p).map Prod.fst ∨
        Except.ok s = (env.solve o.params.solverType o.params.solverConfig p).map Prod.fst :=
      hre.genuine _ hm
    rw [hu.lsType, hu.lsConfig, or_self] at hg
    refine ⟨p, ?_⟩
    cases hx : env.solve o.params.solverType o.params.solverConfig p with
    | error e => rw [hx] at hg; cases hg
    | ok r => rw [hx] at hg; cases hg; exact ⟨r.2, rfl⟩
  · cases h1

example : Built Witness.demo ∧ Fresh Witness.demo none ∧
    Witness.succeeds (run (Witness.env Witness.stay) Witness.demo none) = true :=
  ⟨Witness.demo_built, Or.inl rfl, by decide +kernel⟩

/-- C05, for resumed runs: members are results of the local solver (that given at construction, or that of the
checkpoint's parameters) or come from the checkpoint. -/
theorem C05_members_resumed {env : Env n} {o : Opt n} {loaded : Option (Except CkErr (Ckpt n))} {c : Ckpt n}
    {set : List (Sol n)} (hr : Resumes o loaded c) (hc : c.solutionSet ≠ some [])
    (h : (run env o loaded).result = .ok set) :
    ∀ s ∈ set, (∃ p k, env.solve o.lsType o.lsConfig p = .ok (s, k)) ∨
      (∃ p k, env.solve c.params.solverType c.params.solverConfig p = .ok (s, k)) ∨
      ∃ l, c.solutionSet = some l ∧ s ∈ l := by
  obtain ⟨hfin, _⟩ := run_ok h
  rw [run_resumes env o loaded hr, finish_final] at hfin
  have hre := Steps.body env true ⟨(started env o).restore c, 0, 0, []⟩
  have hi := histInv (o := (started env o).restore c) hc hre
  have he := hi.solset
  rw [hfin, show ((started env o).restore c).solset = c.solutionSet from rfl] at he
  intro s hs
  rcases setFold_mem he.symm s hs with h1 | h1
  · obtain ⟨it, p, hm⟩ := hi.inset s h1
    have hg : Except.ok s = (env.solve o.lsType o.lsConfig p).map Prod.fst ∨
        Except.ok s = (env.solve c.params.solverType c.params.solverConfig p).map Prod.fst :=
      hre.genuine _ hm
    rcases hg with hg | hg
    · refine Or.inl ⟨p, ?_⟩
      cases hx : env.solve o.lsType o.lsConfig p with
      | error e => rw [hx] at hg; cases hg
      | ok r => rw [hx] at hg; cases hg; exact ⟨r.2, rfl⟩
    · refine Or.inr (Or.inl ⟨p, ?_⟩)
      cases hx : env.solve c.params.solverType c.params.solverConfig p with
      | error e => rw [hx] at hg; cases hg
      | ok r => rw [hx] at hg; cases hg; exact ⟨r.2, rfl⟩
  · exact Or.inr (Or.inr h1)

/-- A checkpoint of a run, after which the run is resumed. -/
example : let c := Witness.demo.createCkpt (F64.zero, "t")
    let o := Witness.demo.withCheckpointing ⟨"c", 1, true, true⟩
    Resumes o (some (.ok { c with referenceSet := [Witness.pt (Witness.num 2)] }))
      { c with referenceSet := [Witness.pt (Witness.num 2)] } ∧
      c.solutionSet ≠ some [] ∧ Witness.succeeds (run (Witness.env Witness.stay) o
        (some (.ok { c with referenceSet := [Witness.pt (Witness.num 2)] }))) = true :=
  ⟨⟨rfl, _, rfl, rfl⟩, by decide +kernel, by decide +kernel⟩

/-! ### C06: the first objective never gets worse -/

theorem newBest_lt {c : SetCfg n} {hd s : Sol n} {tl : List (Sol n)}
    (ha : F64.le F64.zero c.absTol = true) (h : classify c (some (hd :: tl)) s = .newBest) :
    F64.lt s.objective hd.objective = true := by
  unfold classify at h
  split at h
  · cases h
  · dsimp only at h
    split at h
    · rename_i hlt
      obtain ⟨h1, h2, h3⟩ := lt_iff.1 hlt
      obtain ⟨_, a2, a3⟩ := le_iff.1 ha
      have hm := max_key_left (y := c.relTol.mul (s.objective.abs.max hd.objective.abs)) a2
      have hz : F64.zero.key = 0 := by decide
      obtain ⟨k1, k2⟩ := sub_le_self (x := hd.objective) hm.2 (by omega) h2
      exact lt_iff.2 ⟨h1, k2, by unfold tolerance at h3; omega⟩
    · split at h <;> cases h

theorem head_step {c : SetCfg n} {set set' : List (Sol n)} {hd hd' s : Sol n}
    (ha : F64.le F64.zero c.absTol = true) (h : set.head? = some hd)
    (hs : newSet (classify c (some set) s) (some set) s = some set') (h' : set'.head? = some hd') :
    (hd' = hd ∧ set <+: set') ∨
      (set' = [s] ∧ hd' = s ∧ F64.lt s.objective hd.objective = true) := by
  obtain ⟨tl, rfl⟩ : ∃ tl, set = hd :: tl := by
    cases set with
    | nil => cases h
    | cons a l => injection h with h; subst h; exact ⟨l, rfl⟩
  cases hv : classify c (some (hd :: tl)) s <;> rw [hv] at hs <;> simp only [newSet] at hs
  case first =>
    unfold classify at hv
    split at hv
    · cases hv
    · dsimp only at hv; split at hv
      · cases hv
      · split at hv <;> cases hv
  case newBest =>
    injection hs with hs; subst hs
    injection h' with h'; subst h'
    exact Or.inr ⟨rfl, rfl, newBest_lt ha hv⟩
  case added =>
    injection hs with hs; subst hs
    simp at h'
    exact Or.inl ⟨h'.symm, by simp⟩
  all_goals
    injection hs with hs; subst hs
    injection h' with h'
    exact Or.inl ⟨h'.symm, List.prefix_rfl⟩

/-- C06, one step: processing a solution keeps the first member (possibly appending), or replaces the
whole set by the new solution, whose objective is then strictly smaller. -/
theorem C06_step (o : Opt n) (s : Sol n) (set set' : List (Sol n)) (hd hd' : Sol n)
    (ha : F64.le F64.zero o.absTol = true)
    (h : o.solset = some set) (hh : set.head? = some hd)
    (h' : (o.process s).1.solset = some set') (hh' : set'.head? = some hd') :
    (hd' = hd ∧ set <+: set') ∨
      (set' = [s] ∧ hd' = s ∧ F64.lt s.objective hd.objective = true) := by
  rw [Opt.process_solset, h] at h'
  exact head_step (c := o.setCfg) ha hh h' hh'

/-- C06, for every history and every continuation: the first member stays or has been replaced by one
with a strictly smaller objective; the set never disappears. -/
theorem C06_history (o : Opt n) (hist more : List (Sol n)) (set : List (Sol n)) (hd : Sol n)
    (ha : F64.le F64.zero o.absTol = true)
    (h : (afterAll o hist).solset = some set) (hh : set.head? = some hd) :
    ∃ set' hd', (afterAll o (hist ++ more)).solset = some set' ∧ set'.head? = some hd' ∧
      (hd' = hd ∨ F64.lt hd'.objective hd.objective = true) := by
  induction more using List.reverseRecOn with
  | nil => exact ⟨set, hd, by simpa using h, hh, Or.inl rfl⟩
  | append_singleton l s ih =>
    obtain ⟨set1, hd1, i1, i2, i3⟩ := ih
    rw [← List.append_assoc, afterAll_snoc]
    have hne : set1 ≠ [] := by rintro rfl; cases i2
    have hs2 : ∃ set2, ((afterAll o (hist ++ l)).process s).1.solset = some set2 ∧ set2 ≠ [] := by
      rw [Opt.process_solset, i1]
      cases classify (afterAll o (hist ++ l)).setCfg (some set1) s <;> simp [newSet, hne]
    obtain ⟨set2, j1, j2⟩ := hs2
    obtain ⟨hd2, tl2, rfl⟩ : ∃ a b, set2 = a :: b := by
      cases set2 with
      | nil => exact absurd rfl j2
      | cons a b => exact ⟨a, b, rfl⟩
    refine ⟨_, hd2, j1, rfl, ?_⟩
    rcases C06_step _ s set1 _ hd1 hd2 (by rw [(afterAll_cfg o _).absTol]; exact ha) i1 i2 j1 rfl
      with k | k
    · rw [k.1]; exact i3
    · rw [k.2.1]
      rcases i3 with i3 | i3
      · rw [i3] at k; exact Or.inr k.2.2
      · exact Or.inr (lt_trans' k.2.2 i3)

/-- C06 and C09, for runs: the solution set and the distance filter at the end of a run are those
obtained by processing the recorded local solutions in order. -/
theorem C06_run_is_history (env : Env n) (o : Opt n) (set : List (Sol n)) (hnew : o.solset = none)
    (h : (run env o none).result = .ok set) :
    (afterAll o (processedBy env o none)).solset = some set := by
  have hok := run_ok h
  obtain ⟨o1, hh | hh⟩ := fresh_start h
  · obtain ⟨hc, hs, _, hi⟩ := hh
    have he := hi.solset
    rw [hok.1, hs, hc.setCfg] at he
    rw [afterAll_solset]; exact he.symm
  · rw [hnew] at hh; cases hh

/-! ### C09: the distance filter receives every local solution -/

/-- C09, for every sequence of local solutions and whatever became of them. -/
theorem C09_history (o : Opt n) (hist : List (Sol n)) (hne : o.solset ≠ some []) :
    (afterAll o hist).dist.solutions = o.dist.solutions ++ hist := by
  induction hist using List.reverseRecOn with
  | nil => simp [afterAll]
  | append_singleton l s ih =>
    rw [afterAll_snoc, Opt.process_dist, DistanceFilter.add, ih, List.append_assoc]
    rw [afterAll_solset]
    exact setFold_ne_nil l hne

/-- C09, for runs: at the end the filter holds exactly the processed solutions, in order. -/
theorem C09_run (env : Env n) (o : Opt n) (set : List (Sol n)) (hnew : o.solset = none)
    (hd : o.dist.solutions = []) (h : (run env o none).result = .ok set) :
    (run env o none).final.opt.dist.solutions = processedBy env o none := by
  obtain ⟨o1, hh | hh⟩ := fresh_start h
  · obtain ⟨_, _, h3, hi⟩ := hh
    have := hi.dist
    rw [h3, hd] at this
    simpa [processedBy] using this
  · rw [hnew] at hh; cases hh

/-- C09: after a history, a start point passes the filters only if it is farther than the distance
factor from every processed solution (also the ones that did not enter the set). -/
theorem C09_rejects_near (o : Opt n) (hist : List (Sol n)) (hne : o.solset ≠ some []) (p : Pt n)
    (v : F64) (h : (afterAll o hist).shouldStart p v = true) :
    ∀ s ∈ hist, F64.lt (o.dist.params.distanceFactor.mul o.dist.params.distanceFactor)
      (dist2 p s.point) = true := by
  unfold Opt.shouldStart DistanceFilter.check at h
  rw [C09_history o hist hne, (afterAll_cfg o hist).dparams] at h
  simp only [Bool.and_eq_true, List.all_eq_true, List.mem_append] at h
  intro s hs
  exact h.2 s (Or.inr hs)

/-! ### C10: excluded solutions -/

/-- Every coordinate lies between its bounds. -/
def inBounds (p : Problem n) (x : Pt n) : Prop :=
  ∀ i, F64.le (p.lower i) (x i) = true ∧ F64.le (x i) (p.upper i) = true

theorem inBounds_of_within {p : Problem n} {x : Pt n} (hx : ∀ i, (x i).isNaN = false)
    (hl : ∀ i, (p.lower i).isNaN = false) (hu : ∀ i, (p.upper i).isNaN = false)
    (h : withinBounds p x = true) : inBounds p x := by
  intro i
  unfold withinBounds at h
  rw [List.all_eq_true] at h
  have := h i (List.mem_finRange i)
  simp only [Bool.not_eq_true', Bool.or_eq_false_iff, F64.gt] at this
  exact ⟨le_of_not_lt (hx i) (hl i) this.1, le_of_not_lt (hu i) (hx i) this.2⟩

/-- Members of the set passed the bounds check when it is enabled. -/
theorem setFold_within {c : SetCfg n} (hex : c.exclude = true) {st : Option (List (Sol n))}
    {hist : List (Sol n)}
    (h0 : ∀ set, st = some set → ∀ s ∈ set, withinBounds c.problem s.point = true) :
    ∀ set, setFold c st hist = some set → ∀ s ∈ set, withinBounds c.problem s.point = true := by
  induction hist using List.reverseRecOn with
  | nil => exact h0
  | append_singleton l x ih =>
    intro set hs s hmem
    rw [setFold_snoc] at hs
    by_cases hw : withinBounds c.problem x.point = true
    · cases hv : classify c (setFold c st l) x <;> rw [hv] at hs <;> simp only [newSet] at hs
      case first | newBest =>
        injection hs with hs; subst hs
        simp at hmem; subst hmem; exact hw
      case added =>
        injection hs with hs; subst hs
        rw [List.mem_append] at hmem
        rcases hmem with hm | hm
        · cases hset : setFold c st l with
          | none => rw [hset] at hm; simp at hm
          | some l' => rw [hset] at hm; exact ih l' hset s hm
        · simp at hm; subst hm; exact hw
      all_goals exact ih set hs s hmem
    · have hv : classify c (setFold c st l) x = .outOfBounds := by
        unfold classify
        rw [if_pos (by simp [hex, hw])]
      rw [hv] at hs
      exact ih set hs s hmem

/-- C10 (partial): with exclusion enabled every returned solution without NaN coordinates lies
inside the bounds.  Missing: solutions with a NaN coordinate, see `C10_nan_returned`. -/
theorem C10_in_bounds_partial (env : Env n) (o : Opt n) (set : List (Sol n))
    (hnew : o.solset = none) (hex : o.exclude = true)
    (hl : ∀ i, (o.problem.lower i).isNaN = false) (hu : ∀ i, (o.problem.upper i).isNaN = false)
    (h : (run env o none).result = .ok set) (s : Sol n) (hs : s ∈ set)
    (hnan : ∀ i, (s.point i).isNaN = false) : inBounds o.problem s.point := by
  have hh := C06_run_is_history env o set hnew h
  rw [afterAll_solset] at hh
  exact inBounds_of_within hnan hl hu
    (setFold_within (c := o.setCfg) hex (by rw [hnew]; simp) set hh s hs)

/-- C10 holds for the coordinates themselves: no coordinate is below its lower or above its upper
bound, NaN or not. -/
theorem C10_not_outside (env : Env n) (o : Opt n) (set : List (Sol n))
    (hnew : o.solset = none) (hex : o.exclude = true)
    (h : (run env o none).result = .ok set) (s : Sol n) (hs : s ∈ set) (i : Fin n) :
    F64.lt (s.point i) (o.problem.lower i) = false ∧
      F64.lt (o.problem.upper i) (s.point i) = false := by
  have hh := C06_run_is_history env o set hnew h
  rw [afterAll_solset] at hh
  have hw := setFold_within (c := o.setCfg) hex (by rw [hnew]; simp) set hh s hs
  unfold withinBounds at hw
  rw [List.all_eq_true] at hw
  have := hw i (List.mem_finRange i)
  simp only [Bool.not_eq_true', Bool.or_eq_false_iff, F64.gt] at this
  exact this

open Witness

/-- Optimizer used in the examples: minimise `x` over `[1,4]`, sequential, exclusion enabled. -/
def exOpt : Option (Opt 1) :=
  ((Opt.new lin (params 5 6 0)).toOption).map fun o => ((o.setParallel false).setExclude true).withTolerance
    (num 4) F64.zero

/-- Objectives of the returned set. -/
def resObjs (r : RunResult 1) : Option (List F64) := r.result.toOption.map (·.map Sol.objective)

/-- A fresh run with exclusion returns two solutions: the hypotheses of C05, C06, C09, C10 are met. -/
example : (exOpt.map fun o => (resObjs (run (env stay) o none), o.solset.isNone, o.exclude,
    F64.le F64.zero o.absTol, (processedBy (env stay) o none).length)) =
    some (some [num 1, num 4], true, true, true, 2) := by decide +kernel

/-- A local solver that returns a point with a NaN coordinate. -/
def nanSolver (_ : SolverType) (_ : SolverConfig) (_ : Pt 1) : Except LErr (Sol 1 × Nat) :=
  .ok (⟨pt F64.nan, F64.zero⟩, 1)

/-- C10 is violated for NaN coordinates: with exclusion enabled, a solution that is not inside the
bounds is returned. -/
theorem C10_nan_returned : ∃ (env : Env 1) (o : Opt 1) (set : List (Sol 1)),
    o.exclude = true ∧ o.solset = none ∧ (run env o none).result = .ok set ∧
    ∃ s ∈ set, ¬ inBounds o.problem s.point := by
  have key : (exOpt.map fun o => decide (o.exclude = true ∧ o.solset = none ∧
      o.problem.lower 0 = num 1 ∧
      (run (env nanSolver) o none).result.toOption = some [⟨pt F64.nan, F64.zero⟩])) =
      some true := by decide +kernel
  cases ho : exOpt with
  | none => rw [ho] at key; cases key
  | some o =>
    rw [ho] at key
    simp only [Option.map_some, Option.some.injEq, decide_eq_true_eq] at key
    obtain ⟨h1, h2, _, h3⟩ := key
    refine ⟨env nanSolver, o, [⟨pt F64.nan, F64.zero⟩], h1, h2, ?_, _, List.mem_singleton.2 rfl, ?_⟩
    · cases hr : (run (env nanSolver) o none).result with
      | error e => rw [hr] at h3; cases h3
      | ok l => rw [hr] at h3; simp [Except.toOption] at h3; rw [h3]
    · intro hc
      have := (le_iff.1 (hc 0).1).2.1
      exact absurd this (by decide)

end GS.Props
