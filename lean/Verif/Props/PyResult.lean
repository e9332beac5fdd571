/- C127: what the Python function `optimize` accepts, returns and raises. -/
import Verif.Props.PyObserver
import Verif.Props.EndToEnd
import Verif.Props.Outcome
import Verif.Props.Construct
import Verif.Props.Tolerance

namespace GS.Props
open GS GS.Py GS.Builders
open GS.Runner hiding setup
variable {n : Nat}

/-- The rows are those of the rectangular array read from the nested list, and all are starting points of the
problem. -/
def PointsFit (p : Problem n) (rows : List (List F64)) : Prop :=
  rows.flatten.length = rows.length * firstLength rows ∧
    ∃ arr : List (List F64), arr.length = rows.length ∧ (∀ r ∈ arr, r.length = firstLength rows) ∧
      arr.flatten = rows.flatten ∧ ∀ row ∈ arr, rowOk p row

theorem params_fields {lower : Char → List Char} {a : Args n} {p : Params} (h : params lower a = .ok p) :
    p.iterations = a.params.iterations ∧ p.populationSize = a.params.populationSize ∧
      p.thresholdFactor = a.params.thresholdFactor ∧ p.distanceFactor = a.params.distanceFactor := by
  unfold params at h
  split at h
  · cases h
  · split at h <;> cases h
    exact ⟨rfl, rfl, rfl, rfl⟩

theorem solverConfig_error {t : SolverType} {c : Option PyObj} {e : PyErr} (h : solverConfig t c = .error e) :
    e = .valueError := by
  unfold solverConfig at h
  (repeat' split at h) <;> cases h <;> rfl

theorem addPoints_ok (o : Opt n) (pts : Option (List (List F64))) :
    (∃ o', addPoints o pts = .ok o') ↔ ∀ rows, pts = some rows → PointsFit o.problem rows := by
  cases pts with
  | none => exact ⟨fun _ rows h => (by cases h), fun _ => ⟨o, rfl⟩⟩
  | some rows =>
    constructor
    · rintro ⟨o', h⟩ r hr
      injection hr with hr
      subst hr
      unfold addPoints at h
      dsimp only at h
      split at h
      · cases h
      · rename_i arr harr
        have h1 := ((C70_acceptance_partial rows).1 arr).1 harr
        exact ⟨h1.1, arr, h1.2.1, h1.2.2.1, h1.2.2.2, (C12_accepts_iff_partial o arr).1 ⟨o', mapErr_ok h⟩⟩
    · intro h
      obtain ⟨h1, arr, h2, h3, h4, h5⟩ := h rows rfl
      have harr := ((C70_acceptance_partial rows).1 arr).2 ⟨h1, h2, h3, h4⟩
      obtain ⟨o', ho'⟩ := (C12_accepts_iff_partial o arr).2 h5
      refine ⟨o', ?_⟩
      unfold addPoints
      dsimp only
      rw [harr]
      dsimp only
      rw [ho']
      rfl

theorem pySetup_error {lower : Char → List Char} {a : Args n} {e : PyErr} (h : setup lower a = .error e) :
    e = .valueError := by
  unfold setup at h
  split at h
  · rename_i e' he
    injection h with h
    subst h
    unfold params at he
    split at he
    · cases he; rfl
    · split at he
      · rename_i hc
        injection he with he
        subst he
        exact solverConfig_error hc
      · cases he
  split at h
  · rename_i e' he
    injection h with h
    subst h
    cases hn : Opt.new a.problem _ with
    | ok o => rw [hn] at he; cases he
    | error x =>
      rw [hn] at he
      rcases C11_first_error _ _ x hn with ⟨_, rfl⟩ | ⟨_, _, rfl⟩ | ⟨_, _, _, rfl⟩ | ⟨_, _, _, _, rfl⟩ <;>
        (cases he; rfl)
  split at h
  · rename_i o _ _ e' he
    injection h with h
    subst h
    unfold addPoints at he
    split at he
    · cases he
    · split at he
      · rename_i hp
        injection he with he
        subst he
        unfold pointsArray at hp
        split at hp <;> cases hp
        rfl
      · rename_i arr harr
        cases hn : Opt.withPoints o arr with
        | ok o => rw [hn] at he; cases he
        | error x =>
          rw [hn] at he
          obtain ⟨i, row, _, _, ⟨_, rfl⟩ | ⟨_, _, rfl⟩⟩ := C12_first_error o arr x hn <;> (cases he; rfl)
  · cases h

/-- C127: `optimize` accepts its arguments exactly when the solver name is known, the configuration is one of that
solver (or absent), the parameters are valid and all starting points fit; otherwise it raises `ValueError`,
whatever the environment does. -/
theorem C127_accepts (lower : Char → List Char) (a : Args n) :
    ((∃ o, setup lower a = .ok o) ↔
      (∃ t, fromString lower true (a.localSolver.getD "cobyla".toList) = some t ∧
        ∀ c, a.config = some c → (described c).map Prod.fst = some t) ∧
      4 ≤ a.params.populationSize ∧ a.params.iterations ≤ a.params.populationSize ∧
      F64.le a.params.thresholdFactor F64.zero = false ∧ F64.lt a.params.distanceFactor F64.zero = false ∧
      ∀ rows, a.points = some rows → PointsFit a.problem rows) ∧
    ((¬ ∃ o, setup lower a = .ok o) → ∀ env, (optimize lower env a).value = .error .valueError) := by
  have hcfg : ∀ t, (∃ x, solverConfig t a.config = .ok x) ↔
      ∀ c, a.config = some c → (described c).map Prod.fst = some t := by
    intro t
    cases a.config with
    | none => exact ⟨fun _ c h => (by cases h), fun _ => by cases t <;> exact ⟨_, rfl⟩⟩
    | some c =>
      refine ⟨fun ⟨x, hx⟩ c' hc' => ?_, fun h => ?_⟩
      · injection hc' with hc'
        subst hc'
        cases t <;> cases c <;> first | rfl | cases hx
      · have := h c rfl
        cases t <;> cases c <;> first | exact ⟨_, rfl⟩ | cases this
  refine ⟨⟨fun ⟨o, h⟩ => ?_, fun ⟨⟨t, ht, hc⟩, h1, h2, h3, h4, h5⟩ => ?_⟩, fun h env => ?_⟩
  · unfold setup at h
    split at h
    · cases h
    rename_i p hp
    split at h
    · cases h
    rename_i o0 ho0
    split at h
    · cases h
    rename_i o1 ho1
    have hnew := mapErr_ok ho0
    obtain ⟨f1, f2, f3, f4⟩ := params_fields hp
    have hacc := (C11_accepts_iff_partial a.problem p).1 ⟨o0, hnew⟩
    rw [f1, f2, f3, f4] at hacc
    have hpts := (addPoints_ok o0 a.points).1 ⟨o1, ho1⟩
    rw [(Witness.new_fields hnew).1] at hpts
    refine ⟨?_, hacc.1, hacc.2.1, hacc.2.2.1, hacc.2.2.2, hpts⟩
    unfold params at hp
    split at hp
    · cases hp
    rename_i t ht
    split at hp
    · cases hp
    rename_i c hc
    exact ⟨t, ht, (hcfg t).1 ⟨c, hc⟩⟩
  · obtain ⟨c, hc⟩ := (hcfg t).2 hc
    have hp : ∃ p, params lower a = .ok p := by
      unfold params
      rw [show fromString lower true (a.localSolver.getD ['c', 'o', 'b', 'y', 'l', 'a']) = some t from ht]
      dsimp only
      rw [hc]
      exact ⟨_, rfl⟩
    obtain ⟨p, hp⟩ := hp
    obtain ⟨f1, f2, f3, f4⟩ := params_fields hp
    obtain ⟨o0, ho0⟩ := (C11_accepts_iff_partial a.problem p).2 ⟨by omega, by omega, by rw [f3]; exact h3,
      by rw [f4]; exact h4⟩
    obtain ⟨o1, ho1⟩ := (addPoints_ok o0 a.points).2 (by rw [(Witness.new_fields ho0).1]; exact h5)
    refine ⟨settings o1 a, ?_⟩
    unfold setup
    rw [hp]
    dsimp only
    rw [ho0]
    dsimp only [mapErr]
    rw [ho1]
  · cases hs : setup lower a with
    | ok o => exact absurd ⟨o, hs⟩ h
    | error e =>
      unfold optimize
      rw [hs, pySetup_error hs]

/-- C127: with accepted arguments `optimize` returns exactly what the run of the Rust optimizer returns, turns
each of its errors into `ValueError`, and panics exactly if the run panics. -/
theorem C127_outcome (lower : Char → List Char) (env : Env n) (a : Args n) (o : Opt n) (h : setup lower a = .ok o) :
    (∀ set, (run env o none).result = .ok set → (optimize lower env a).value = .ok (set.map PySol.ofSol)) ∧
      (∀ e, (run env o none).result = .error e →
        (optimize lower env a).value = .error (if e = .panic then .panic else .valueError)) := by
  unfold optimize
  rw [h]
  dsimp only
  constructor
  · intro set hs
    rw [hs]
    rfl
  · intro e he
    rw [he]
    cases e <;> rfl

/-- C127: a returned solution set is not empty and has a best solution; all points have the dimension of the
problem; the objectives are within the given tolerances of the first; the points are pairwise apart; every
solution was reported by a local search of the run, of which there were at most `1 + iterations`; with exclusion no
coordinate is outside its bounds; and if the solvers report the values they obtained, each objective belongs to its
point. -/
theorem C127_returned (lower : Char → List Char) (env : Env n) (a : Args n) (l : List PySol)
    (h : (optimize lower env a).value = .ok l) :
    ∃ (o : Opt n) (set : List (Sol n)), setup lower a = .ok o ∧ l = set.map PySol.ofSol ∧
      GoodSet a.params.absTol a.params.relTol a.params.distanceFactor set ∧
      l ≠ [] ∧ (∃ b ∈ l, best l = some b) ∧ (∀ s ∈ l, s.point.length = n) ∧
      (∀ s ∈ set, ∃ it p, Event.search it p (.ok s) ∈ (run env o none).final.trace) ∧
      searchCount (run env o none).final.trace ≤ 1 + a.params.iterations ∧
      (a.exclude.getD false = true → ∀ s ∈ set, ∀ i,
        F64.lt (s.point i) (a.problem.lower i) = false ∧ F64.lt (a.problem.upper i) (s.point i) = false) ∧
      (∀ (lib : Lib) (q : Prob), Views a.problem q → Uses env lib q → Honest lib q →
        ∀ s ∈ set, a.problem.objective s.point = .ok s.objective ∨
          (fromString lower true (a.localSolver.getD "cobyla".toList) = some SolverType.cobyla ∧
            (∃ e, a.problem.objective s.point = .error e) ∧ s.objective = F64.inf)) := by
  unfold optimize at h
  split at h
  · cases h
  rename_i o ho
  dsimp only at h
  split at h
  · cases h
  rename_i set hset
  injection h with h
  have hrun := mapErr_ok hset
  obtain ⟨p, hp, ep, _, _, epr, _, _, eex, _, e1, e2, _, _, e3, _⟩ := C72_settings lower a o ho
  obtain ⟨hg, hm⟩ := C05_run env o set e3 hrun
  obtain ⟨f1, _, _, f4⟩ := params_fields hp
  have hfresh : Fresh o none := Or.inl rfl
  have hne : l ≠ [] := by
    rw [← h]
    intro hc
    exact hg.nonempty (List.map_eq_nil_iff.1 hc)
  refine ⟨o, set, ho, h.symm, ?_, hne, ?_, ?_, hm, ?_, ?_, ?_⟩
  · rw [e1, e2, ep, f4] at hg
    exact hg
  · have hb := (C71_agrees_with_rust set).1
    rw [h] at hb
    cases hbs : bestSolution set with
    | none => exact absurd ((C04_none_iff set).1 hbs) hg.nonempty
    | some b =>
      rw [hbs] at hb
      exact ⟨PySol.ofSol b, h ▸ List.mem_map.2 ⟨b, best_mem hbs, rfl⟩, hb⟩
  · intro s hs
    rw [← h] at hs
    obtain ⟨x, _, rfl⟩ := List.mem_map.1 hs
    exact List.length_ofFn
  · have := (C32_total env o none).1 hfresh
    rw [ep, f1] at this
    exact this
  · intro hex s hs i
    have := C10_not_outside env o set e3 (by rw [eex]; exact hex) hrun s hs i
    rw [epr] at this
    exact this
  · intro lib q hv hu hh s hs
    have := C83_values (setup_built lower a o ho) hfresh (by rw [epr]; exact hv) hu hh hrun s hs
    rw [epr] at this
    rcases this with h1 | ⟨h1, h2⟩
    · exact Or.inl h1
    · refine Or.inr ⟨?_, h2⟩
      rw [ep] at h1
      unfold params at hp
      split at hp
      · cases hp
      rename_i t ht
      split at hp <;> cases hp
      dsimp only at h1
      subst h1
      exact ht

/-- An accepted call that returns two solutions. -/
example : (∃ l, (optimize demoLower (Witness.env tilted) (tiltedArgs F64.zero F64.zero)).value = .ok l) ∧
    (∃ o, setup demoLower (tiltedArgs F64.zero F64.zero) = .ok o) := by
  have h : (optimize demoLower (Witness.env tilted) (tiltedArgs F64.zero F64.zero)).value = .ok _ :=
    returned_ok (by decide +kernel)
  obtain ⟨o, _, ho, _⟩ := C127_returned _ _ _ _ h
  exact ⟨⟨_, h⟩, o, ho⟩

/-- More iterations than points: refused. -/
example : ¬ ∃ o, setup demoLower { tiltedArgs F64.zero F64.zero with
    params := { (tiltedArgs F64.zero F64.zero).params with iterations := 7 } } = .ok o := by
  intro h
  exact absurd ((C127_accepts _ _).1.1 h).2.2.1 (by decide)

end GS.Props
