/- Properties of the Python bindings: nested lists (C70), solution sets (C71), configuration objects (C72, C74),
order of the returned solutions (C75) and observers (C78). -/
import Verif.Model.Python
import Verif.Props.Builders
import Verif.Props.SolutionSet
import Verif.Props.Batch
import Verif.Lemmas.Tolerance

namespace GS.Props
open GS GS.Py GS.Builders
variable {n : Nat}

/-! ### C70: nested lists -/

/-- All rows have the same length. -/
def Rectangular (rows : List (List F64)) : Prop := ∀ r ∈ rows, ∀ r' ∈ rows, r.length = r'.length

theorem flatten_length_const (rows : List (List F64)) (c : Nat) (h : ∀ r ∈ rows, r.length = c) :
    rows.flatten.length = rows.length * c := by
  induction rows with
  | nil => simp
  | cons r rows ih =>
    rw [List.flatten_cons, List.length_append, ih fun x hx => h x (List.mem_cons_of_mem _ hx),
      h r List.mem_cons_self, List.length_cons, Nat.succ_mul, Nat.add_comm]

theorem rows_of_flatten (rows : List (List F64)) (c : Nat) (h : ∀ r ∈ rows, r.length = c) :
    ((List.range rows.length).map fun i => (rows.flatten.drop (i * c)).take c) = rows := by
  induction rows with
  | nil => rfl
  | cons r rows ih =>
    have hr := h r List.mem_cons_self
    rw [List.length_cons, List.range_succ_eq_map, List.map_cons, List.map_map]
    congr 1
    · simp [hr]
    · conv_rhs => rw [← ih fun x hx => h x (List.mem_cons_of_mem _ hx)]
      apply List.map_congr_left
      intro i _
      simp only [Function.comp, List.flatten_cons]
      rw [show Nat.succ i * c = r.length + i * c by rw [hr, Nat.succ_mul, Nat.add_comm],
        List.drop_append, List.drop_eq_nil_of_le (by omega)]
      simp

theorem firstLength_of {rows : List (List F64)} (h : Rectangular rows) : ∀ r ∈ rows, r.length = firstLength rows := by
  intro r hr
  cases rows with
  | nil => cases hr
  | cons a l => exact h r hr a List.mem_cons_self

/-- C70 (the accepting half): a rectangular list is accepted unchanged, as points and as bounds; a square one as
Hessian. -/
theorem C70_rectangular (rows : List (List F64)) (h : Rectangular rows) :
    pointsArray rows = .ok rows ∧ variableBounds (some rows) = .ok rows ∧
      (rows.length = firstLength rows → hessianArray rows = some rows) := by
  have hl := firstLength_of h
  have key : fromShape rows.length (firstLength rows) rows.flatten = some rows := by
    unfold fromShape
    rw [if_pos (flatten_length_const rows _ hl), rows_of_flatten rows _ hl]
  refine ⟨by unfold pointsArray; rw [key], by unfold variableBounds; simp only [key], fun hs => ?_⟩
  unfold hessianArray
  rw [← hs] at key
  exact key

/-- C70 (partial): a nested list is accepted exactly when the number of its elements is the number of rows times the
length of the first row, and then is the rectangular array with the same elements in the same order; otherwise
points raise `ValueError`, bounds panic and Hessians fail.  Missing: ragged lists with that many elements are
accepted and rearranged (`C70_violated`). -/
theorem C70_acceptance_partial (rows : List (List F64)) :
    (∀ a, pointsArray rows = .ok a ↔ rows.flatten.length = rows.length * firstLength rows ∧
      a.length = rows.length ∧ (∀ r ∈ a, r.length = firstLength rows) ∧ a.flatten = rows.flatten) ∧
    (rows.flatten.length ≠ rows.length * firstLength rows →
      pointsArray rows = .error .valueError ∧ variableBounds (some rows) = .error .panic) ∧
    (hessianArray rows = none ↔ rows.flatten.length ≠ rows.length * rows.length) := by
  refine ⟨fun a => ?_, fun h => ?_, ?_⟩
  · unfold pointsArray fromShape
    constructor
    · split
      · rename_i x hx
        split at hx
        · rename_i hlen
          intro h
          injection h with h
          injection hx with hx
          subst h hx
          have hrow : ∀ r ∈ ((List.range rows.length).map fun i =>
              (rows.flatten.drop (i * firstLength rows)).take (firstLength rows)), r.length = firstLength rows := by
            intro r hr
            obtain ⟨i, hi, rfl⟩ := List.mem_map.mp hr
            rw [List.mem_range] at hi
            rw [List.length_take, List.length_drop, hlen]
            have : (i + 1) * firstLength rows ≤ rows.length * firstLength rows :=
              Nat.mul_le_mul_right _ hi
            rw [Nat.succ_mul] at this
            omega
          refine ⟨hlen, by simp, hrow, ?_⟩
          have : ∀ (d : List F64) (r c : Nat), d.length = r * c →
              ((List.range r).map fun i => (d.drop (i * c)).take c).flatten = d := by
            intro d r c
            induction r generalizing d with
            | zero => intro h; simp at h; simp [h]
            | succ r ih =>
              intro h
              rw [List.range_succ_eq_map, List.map_cons, List.map_map, List.flatten_cons]
              have h2 := ih (d.drop c) (by rw [List.length_drop, h, Nat.succ_mul]; omega)
              have h3 : (List.map ((fun i => (d.drop (i * c)).take c) ∘ Nat.succ) (List.range r)) =
                  List.map (fun i => ((d.drop c).drop (i * c)).take c) (List.range r) := by
                apply List.map_congr_left
                intro i _
                simp only [Function.comp, List.drop_drop]
                rw [show Nat.succ i * c = c + i * c by rw [Nat.succ_mul, Nat.add_comm]]
              rw [h3, h2]
              simp
          exact this _ _ _ hlen
        · cases hx
      · intro h; cases h
    · rintro ⟨h1, h2, h3, h4⟩
      rw [if_pos h1]
      show Except.ok _ = Except.ok _
      rw [← h4, ← h2, rows_of_flatten a _ h3]
  · unfold pointsArray variableBounds fromShape
    dsimp only
    rw [if_neg h]
    exact ⟨rfl, rfl⟩
  · unfold hessianArray fromShape
    split <;> simp_all

/-- C70 is violated: `[[a, b], [c], [d, e, f]]` is accepted and becomes `[[a, b], [c, d], [e, f]]`. -/
theorem C70_violated (a b c d e f : F64) :
    ¬ Rectangular [[a, b], [c], [d, e, f]] ∧
      pointsArray [[a, b], [c], [d, e, f]] = .ok [[a, b], [c, d], [e, f]] ∧
      variableBounds (some [[a, b], [c], [d, e, f]]) = .ok [[a, b], [c, d], [e, f]] := by
  refine ⟨fun h => ?_, rfl, rfl⟩
  have := h [a, b] (by simp) [c] (by simp)
  simp at this

example (a b c d : F64) : Rectangular [[a, b], [c, d]] ∧ [[a, b], [c, d]].length = firstLength [[a, b], [c, d]] ∧
    [[a, b], [c]].flatten.length ≠ [[a, b], [c]].length * firstLength [[a, b], [c]] := by
  refine ⟨?_, rfl, by simp [firstLength]⟩
  intro r hr r' hr'
  simp only [List.mem_cons, List.not_mem_nil, or_false] at hr hr'
  rcases hr with rfl | rfl <;> rcases hr' with rfl | rfl <;> rfl

/-! ### C71: solution sets -/

/-- The results of the first `k` calls of `__next__`. -/
def nexts : Nat → PyIter → List (Option PySol)
  | 0, _ => []
  | k + 1, it => it.next.2 :: nexts k it.next.1

/-- C71: calling `__next__` yields the solutions in order, once each, and then `None` (`StopIteration`) forever. -/
theorem C71_iteration (s : List PySol) (k : Nat) :
    nexts k (iter s) = (s.map some ++ List.replicate (k - s.length) none).take k := by
  have key : ∀ (k i : Nat), i ≤ s.length →
      nexts k ⟨s, i⟩ = ((s.drop i).map some ++ List.replicate (k - (s.length - i)) none).take k := by
    intro k
    induction k with
    | zero => intro i _; rfl
    | succ k ih =>
      intro i hi
      unfold nexts PyIter.next
      rcases Nat.lt_or_ge i s.length with h | h
      · rw [List.getElem?_eq_getElem h]
        dsimp only
        rw [ih (i + 1) (by omega), List.drop_eq_getElem_cons h]
        simp only [List.map_cons, List.cons_append, List.take_succ_cons]
        congr 4
        omega
      · have : i = s.length := by omega
        subst this
        rw [List.getElem?_eq_none (by omega)]
        dsimp only
        rw [ih _ (Nat.le_refl _)]
        simp [List.replicate_succ]
  have := key k 0 (Nat.zero_le _)
  simpa [iter] using this

/-- C71: indexing succeeds exactly for `0 <= i < len` and gives the `i`-th solution; too large indices raise
`IndexError`.  (Negative ones raise `OverflowError`.) -/
theorem C71_indexing (s : List PySol) (i : Int) :
    (∀ x, getItem s i = .ok x ↔ 0 ≤ i ∧ s[i.toNat]? = some x) ∧
      ((∃ x, getItem s i = .ok x) ↔ 0 ≤ i ∧ i < len s) ∧ (len s ≤ i → getItem s i = .error .indexError) := by
  unfold getItem len
  refine ⟨fun x => ?_, ?_, fun h => ?_⟩
  · split
    · constructor
      · intro h; cases h
      · rintro ⟨h, _⟩; omega
    · split <;> rename_i hx <;> simp [hx] <;> omega
  · constructor
    · rintro ⟨x, h⟩
      split at h
      · cases h
      · split at h
        · rename_i hx
          have := (List.getElem?_eq_some_iff.mp hx).1
          omega
        · cases h
    · rintro ⟨h0, h1⟩
      rw [if_neg (by omega)]
      have : i.toNat < s.length := by omega
      rw [List.getElem?_eq_getElem this]
      exact ⟨_, rfl⟩
  · rw [if_neg (by omega), List.getElem?_eq_none (by omega)]

theorem best_foldl (l : List (Sol n)) (a : Option (Sol n)) :
    (l.map PySol.ofSol).foldl (fun x y => optOp (minOp PySol.objective) x (some y)) (a.map PySol.ofSol) =
      (l.foldl (fun x y => optOp (minOp Sol.objective) x (some y)) a).map PySol.ofSol := by
  induction l generalizing a with
  | nil => rfl
  | cons x l ih =>
    rw [List.map_cons, List.foldl_cons, List.foldl_cons, ← ih]
    congr 1
    cases a with
    | none => rfl
    | some a =>
      simp only [Option.map_some, optOp, minOp, PySol.ofSol]
      split <;> rfl

/-- C71: `best_solution` and the length agree with the Rust solution set. -/
theorem C71_agrees_with_rust (set : List (Sol n)) :
    best (set.map PySol.ofSol) = (bestSolution set).map PySol.ofSol ∧ len (set.map PySol.ofSol) = set.length ∧
      isEmpty (set.map PySol.ofSol) = set.isEmpty := by
  refine ⟨?_, by simp [len], by cases set <;> rfl⟩
  exact best_foldl set none

example (a b : PySol) : nexts 3 (iter [a, b]) = [some a, some b, none] ∧ getItem [a, b] 1 = .ok b ∧
    getItem [a, b] (-1) = .error .overflowError := ⟨rfl, rfl, rfl⟩

/-! ### C72 and C74: configuration objects -/

/-- The line search described by a Python object. -/
def lineSearchOf : PyLineSearch → LineSearchMethod
  | .moreThuente p => .moreThuente p.c1 p.c2 p.widthTolerance p.bounds
  | .hagerZhang p => .hagerZhang p.delta p.sigma p.epsilon p.theta p.gamma p.eta p.bounds

/-- The solver and the settings described by a Python object.  Tolerances of COBYLA that were not given are the
documented defaults `1e-6`, `1e-8`, `0` and none. -/
def described : PyObj → Option (SolverType × SolverConfig)
  | .lbfgs p => some (.lbfgs, .lbfgs p.maxIter p.toleranceGrad p.toleranceCost p.historySize p.l1Coefficient
      (lineSearchOf p.lineSearch))
  | .nelderMead p => some (.nelderMead, .nelderMead p.simplexDelta p.sdTolerance p.maxIter p.alpha p.gamma p.rho
      p.sigma)
  | .steepestDescent p => some (.steepestDescent, .steepestDescent p.maxIter (lineSearchOf p.lineSearch))
  | .newtonCG p => some (.newtonCG, .newtonCG p.maxIter p.curvatureThreshold p.tolerance
      (lineSearchOf p.lineSearch))
  | .trustRegion p => some (.trustRegion, .trustRegion p.method p.maxIter p.radius p.maxRadius p.eta)
  | .cobyla p => some (.cobyla, .cobyla p.maxIter p.stepSize (p.ftolRel.getD (F64.lit 1 1000000))
      (p.ftolAbs.getD (F64.lit 1 100000000)) (p.xtolRel.getD F64.zero) (p.xtolAbs.getD []))
  | .moreThuente _ | .hagerZhang _ | .lineSearchParams _ | .other => none

/-- The solver a configuration is for. -/
def kindOf : SolverConfig → SolverType
  | .lbfgs .. => .lbfgs
  | .nelderMead .. => .nelderMead
  | .steepestDescent .. => .steepestDescent
  | .trustRegion .. => .trustRegion
  | .newtonCG .. => .newtonCG
  | .cobyla .. => .cobyla

theorem lineSearch_build (p : PyLineSearch) : p.build = lineSearchOf p := by cases p <;> rfl

theorem cobyla_build (p : PyCOBYLA) : p.toBuilder.build = .cobyla p.maxIter p.stepSize
    (p.ftolRel.getD (F64.lit 1 1000000)) (p.ftolAbs.getD (F64.lit 1 100000000)) (p.xtolRel.getD F64.zero)
    (p.xtolAbs.getD []) := by
  obtain ⟨mi, st, a, b, c, d⟩ := p
  cases a <;> cases b <;> cases c <;> cases d <;> rfl

/-- C72: a configuration object for the named solver is passed on field by field; any other object raises
`ValueError`. -/
theorem C72_config (t : SolverType) (c : PyObj) :
    (∀ cfg, described c = some (t, cfg) → solverConfig t (some c) = .ok cfg) ∧
      ((∀ cfg, described c ≠ some (t, cfg)) → solverConfig t (some c) = .error .valueError) := by
  constructor
  · intro cfg h
    cases c <;> simp only [described, Option.some.injEq, Prod.mk.injEq, reduceCtorEq] at h <;>
      (obtain ⟨rfl, rfl⟩ := h; simp only [solverConfig])
    all_goals first
      | exact congrArg _ (cobyla_build _)
      | rfl
      | (simp only [← lineSearch_build]; rfl)
  · intro h
    cases c <;> cases t <;> first
      | rfl
      | exact absurd rfl (h _)

/-- C72: without a configuration object the solver's own defaults are used; in all cases the configuration is one
for the named solver. -/
theorem C72_default (t : SolverType) :
    (solverConfig t none = .ok (match t with
      | .lbfgs => LBFGSBuilder.default.build
      | .nelderMead => NelderMeadBuilder.default.build
      | .steepestDescent => SteepestDescentBuilder.default.build
      | .trustRegion => TrustRegionBuilder.default.build
      | .newtonCG => NewtonCGBuilder.default.build
      | .cobyla => COBYLABuilder.default.build)) ∧
      ∀ config cfg, solverConfig t config = .ok cfg → kindOf cfg = t := by
  constructor
  · cases t <;> rfl
  · intro config cfg h
    cases config with
    | none => cases t <;> (injection h with h; subst h; rfl)
    | some c =>
      cases t <;> cases c <;> first
        | (cases h; done)
        | (injection h with h; subst h; rfl)

/-- C72: what `optimize` does with the solver name: an unknown name raises `ValueError`; a known one (in any letter
case, COBYLA if none is given) selects the solver, and the remaining parameters are taken over unchanged, with seed
0 if none is given. -/
theorem C72_params (lower : Char → List Char) (hl : UnicodeLower lower) (a : Args n) :
    (∀ s, a.localSolver = some s → fromString lower true s = none → params lower a = .error .valueError) ∧
      ∀ p, params lower a = .ok p →
        (∀ s, a.localSolver = some s → fromString lower true s = some p.solverType) ∧
        (a.localSolver = none → p.solverType = .cobyla) ∧
        (∀ c, a.config = some c → described c = some (p.solverType, p.solverConfig)) ∧
        p.iterations = a.params.iterations ∧ p.populationSize = a.params.populationSize ∧
        p.waitCycle = a.params.waitCycle ∧ p.thresholdFactor = a.params.thresholdFactor ∧
        p.distanceFactor = a.params.distanceFactor ∧ p.seed = a.seed.getD 0 := by
  have hcob : fromString lower true ['c', 'o', 'b', 'y', 'l', 'a'] = some .cobyla :=
    (C67_names hl _ .cobyla).mpr ⟨"cobyla", by simp [solverNames], by decide⟩
  constructor
  · intro s hs hn
    unfold params
    rw [hs, Option.getD_some, hn]
  · intro p hp
    unfold params at hp
    split at hp
    · cases hp
    · rename_i t ht
      split at hp
      · cases hp
      · rename_i c hc
        injection hp with hp
        subst hp
        refine ⟨fun s hs => ?_, fun hn => ?_, fun x hx => ?_, rfl, rfl, rfl, rfl, rfl, rfl⟩
        · rw [hs, Option.getD_some] at ht
          exact ht
        · rw [hn, Option.getD_none, hcob] at ht
          injection ht with ht
          exact ht.symm
        · rw [hx] at hc
          by_cases h : ∃ cfg, described x = some (t, cfg)
          · obtain ⟨cfg, h⟩ := h
            rw [(C72_config t x).1 cfg h] at hc
            injection hc with hc
            rw [h, hc]
          · have := (C72_config t x).2 (fun cfg hcfg => h ⟨cfg, hcfg⟩)
            rw [this] at hc
            cases hc

/-- C74 (partial): configuration objects created without arguments describe the default configuration of the Rust
builders, for every class but two, and so do the algorithm parameters.  Missing: `PyHagerZhang` and `PyCOBYLA`
(`C74_hagerzhang_violated`, `C74_cobyla_violated`). -/
theorem C74_defaults_partial :
    PyLBFGS.default.toBuilder.build = LBFGSBuilder.default.build ∧
    PyNelderMead.default.toBuilder.build = NelderMeadBuilder.default.build ∧
    PySteepestDescent.default.toBuilder.build = SteepestDescentBuilder.default.build ∧
    PyNewtonCG.default.toBuilder.build = NewtonCGBuilder.default.build ∧
    PyTrustRegion.default.toBuilder.build = TrustRegionBuilder.default.build ∧
    PyMoreThuente.default.toBuilder.build = MoreThuenteBuilder.default.build ∧
    (∀ p : Problem n, ∀ lower, UnicodeLower lower → params lower ⟨p, PyParams.default, none, none, none, none, none,
      none, none, none, none, none⟩ = .ok defaultParams) := by
  refine ⟨by decide +kernel, by decide +kernel, by decide +kernel, by decide +kernel, by decide +kernel,
    by decide +kernel, fun p lower hl => ?_⟩
  have hcob : fromString lower true ['c', 'o', 'b', 'y', 'l', 'a'] = some .cobyla :=
    (C67_names hl _ .cobyla).mpr ⟨"cobyla", by simp [solverNames], by decide⟩
  unfold params
  dsimp only [Option.getD_none]
  rw [hcob]
  rfl

/-- C74 is violated by the Hager-Zhang line search: the step bounds differ. -/
theorem C74_hagerzhang_violated :
    PyHagerZhang.default.toBuilder.build ≠ HagerZhangBuilder.default.build := by decide +kernel

/-- C74 is violated by COBYLA: the initial step is 1 in Python and 0.5 in Rust, so that passing a default
configuration object to `optimize` differs from passing none. -/
theorem C74_cobyla_violated :
    PyCOBYLA.default.toBuilder.build ≠ COBYLABuilder.default.build ∧
      solverConfig .cobyla (some (.cobyla .default)) ≠ solverConfig .cobyla none := by
  have h : PyCOBYLA.default.toBuilder.build ≠ COBYLABuilder.default.build := by decide +kernel
  exact ⟨h, fun hc => h (Except.ok.inj hc)⟩

theorem mapErr_ok {α : Type} {x : Except Err α} {a : α} (h : mapErr x = .ok a) : x = .ok a := by
  unfold mapErr at h
  split at h
  · rename_i b; cases h; rfl
  · cases h
  · cases h

theorem rowPt_ofFn {row : List F64} {x : Pt n} (h : Opt.rowPt row = some x) : List.ofFn x = row := by
  unfold Opt.rowPt at h
  split at h
  · rename_i hl
    injection h with h
    subst h
    apply List.ext_getElem
    · simp [hl]
    · intro i h1 h2; simp
  · cases h

theorem checkRows_ofFn {p : Problem n} {i : Nat} {rows : List (List F64)} {l : List (Pt n)}
    (h : Opt.checkRows p i rows = .ok l) : l.map List.ofFn = rows := by
  induction rows generalizing i l with
  | nil => cases h; rfl
  | cons r rows ih =>
    unfold Opt.checkRows at h
    split at h
    · cases h
    · rename_i x hx
      split at h
      · split at h
        · cases h
        · rename_i l' hl
          injection h with h
          subst h
          rw [List.map_cons, ih hl, rowPt_ofFn hx]
      · cases h

theorem settings_fields (o : Opt n) (a : Args n) : settings o a =
    { o with obs := (a.observer.map PyObs.cloneInner).or o.obs, par := a.parallel.getD false
             target := a.target.or o.target, maxTime := a.maxTime.or o.maxTime
             exclude := a.exclude.getD false || o.exclude
             absTol := a.params.absTol, relTol := a.params.relTol } := by
  have h1 : ∀ (o : Opt n) (b : Option (PyObs n)),
      setOpt o (fun o (b : PyObs n) => o.addObserver b.cloneInner) b =
        { o with obs := (b.map PyObs.cloneInner).or o.obs } := by
    intro o b; cases b <;> rfl
  have h2 : ∀ (o : Opt n) t, setOpt o Opt.setTarget t = { o with target := t.or o.target } := by
    intro o t; cases t <;> rfl
  have h3 : ∀ (o : Opt n) t, setOpt o Opt.setMaxTime t = { o with maxTime := t.or o.maxTime } := by
    intro o t; cases t <;> rfl
  have h4 : ∀ (o : Opt n) b, setFlag o b = { o with exclude := b || o.exclude } := by
    intro o b; cases b <;> rfl
  unfold settings
  rw [h1, h2, h3, h4]
  rfl

/-- C72: `optimize` sets up the optimizer with exactly the given arguments, parallel mode off and exclusion off
unless requested, and no batch size or checkpointing. -/
theorem C72_settings (lower : Char → List Char) (a : Args n) (o : Opt n) (h : setup lower a = .ok o) :
    ∃ p, params lower a = .ok p ∧ o.params = p ∧ o.lsType = p.solverType ∧ o.lsConfig = p.solverConfig ∧
      o.problem = a.problem ∧ o.target = a.target ∧ o.maxTime = a.maxTime ∧ o.exclude = a.exclude.getD false ∧
      o.par = a.parallel.getD false ∧ o.absTol = a.params.absTol ∧ o.relTol = a.params.relTol ∧
      o.batch = none ∧ o.ckpt = none ∧ o.solset = none ∧ o.obs = a.observer.map PyObs.cloneInner ∧
      (∀ rows, a.points = some rows → Rectangular rows →
        o.custom.map (·.map List.ofFn) = some rows) ∧ (a.points = none → o.custom = none) := by
  unfold setup at h
  split at h
  · cases h
  rename_i p hp
  refine ⟨p, hp, ?_⟩
  split at h
  · cases h
  rename_i o0 ho0
  split at h
  · cases h
  rename_i o1 ho1
  injection h with h
  subst h
  have hnew : Opt.new a.problem p = .ok o0 := mapErr_ok ho0
  obtain ⟨f1, f2, f3, f4, f5, f6, f7, f8, f9, f10⟩ := Witness.new_fields hnew
  have g : o0.lsType = p.solverType ∧ o0.lsConfig = p.solverConfig ∧ o0.solset = none := by
    unfold Opt.new at hnew
    (repeat' split at hnew) <;> cases hnew
    exact ⟨rfl, rfl, rfl⟩
  have ho : o1 = { o0 with custom := o1.custom } := by
    unfold addPoints at ho1
    split at ho1
    · cases ho1; rfl
    · split at ho1
      · cases ho1
      · have := mapErr_ok ho1
        unfold Opt.withPoints at this
        split at this <;> cases this
        rfl
  rw [settings_fields]
  rw [ho]
  dsimp only
  refine ⟨f2, g.1, g.2.1, f1, ?_, ?_, ?_, rfl, rfl, rfl, f6, f8, g.2.2, ?_, ?_, ?_⟩
  · cases a.target <;> simp [f3]
  · cases a.maxTime <;> simp [f4]
  · cases a.exclude with
    | none => simpa using f5
    | some b => cases b <;> simp [f5]
  · cases a.observer <;> simp [f9]
  · intro rows hr hrect
    rw [hr] at ho1
    unfold addPoints at ho1
    dsimp only at ho1
    rw [(C70_rectangular rows hrect).1] at ho1
    have := mapErr_ok ho1
    unfold Opt.withPoints at this
    split at this
    · cases this
    · rename_i l hl
      injection this with this
      rw [← this]
      dsimp only [Option.map_some]
      rw [checkRows_ofFn hl]
  · intro hn
    rw [hn] at ho1
    cases ho1
    exact f10

/-! ### C75: order of the returned solutions -/

/-- Sorted by objective, best first. -/
def SortedByObjective (l : List PySol) : Prop := l.Pairwise fun x y => F64.le x.objective y.objective = true

instance (l : List PySol) : Decidable (SortedByObjective l) := by unfold SortedByObjective; infer_instance

theorem sub_zero_key {x y : F64} (hx : x.isFinite = true) (hy : y.isFinite = true) (h : (x.sub y).key = 0) :
    x.key = y.key := by
  rw [F64.key_sub hx hy] at h
  have h1 : x.toInt - y.toInt ≤ 0 := by
    by_contra hc
    have := F64.le_rkey_of_le (z := x.toInt - y.toInt) (d := 1) (x := ⟨false, 1, by decide⟩) (by decide) (by decide)
      (by rw [show (F64.toInt ⟨false, 1, by decide⟩) = 1 from by decide]; omega)
    rw [h] at this
    exact absurd this (by decide)
  have h2 : 0 ≤ x.toInt - y.toInt := by
    by_contra hc
    have := F64.rkey_le_of_le (z := x.toInt - y.toInt) (d := 1) (x := ⟨true, 1, by decide⟩) (by decide) (by decide)
      (by rw [show (F64.toInt ⟨true, 1, by decide⟩) = -1 from by decide]; omega)
    rw [h] at this
    exact absurd this (by decide)
  have h3 := @F64.toInt_le_iff x y
  have h4 := @F64.toInt_le_iff y x
  omega

/-- C75 (partial): with both tolerances zero and finite objectives, the solutions returned by `optimize` are sorted.
Missing: positive tolerances, e.g. the default ones (`C75_violated`); then only `C05_run` holds (all objectives are
within the tolerance of the first). -/
theorem C75_zero_tolerance_partial (lower : Char → List Char) (env : Env n) (a : Args n) (l : List PySol)
    (ha : a.params.absTol = F64.zero) (hr : a.params.relTol = F64.zero)
    (h : (optimize lower env a).value = .ok l) (hfin : ∀ s ∈ l, s.objective.isFinite = true) :
    SortedByObjective l := by
  unfold optimize at h
  split at h
  · cases h
  rename_i o ho
  dsimp only at h
  split at h
  · cases h
  rename_i set hset
  injection h with h
  obtain ⟨p, _, _, _, _, _, _, _, _, _, e1, e2, _, _, e3, _⟩ := C72_settings lower a o ho
  have hg := (C05_run env o set e3 (mapErr_ok hset)).1
  rw [e1, e2, ha, hr] at hg
  have hfin' : ∀ s ∈ set, s.objective.isFinite = true := fun s hs =>
    hfin (PySol.ofSol s) (h ▸ List.mem_map.mpr ⟨s, hs, rfl⟩)
  have hkey : ∀ hd ∈ set.head?, ∀ s ∈ set, s.objective.key = hd.objective.key := by
    intro hd hhd s hs
    cases set with
    | nil => cases hs
    | cons x tl =>
      simp only [List.head?_cons, Option.mem_def, Option.some.injEq] at hhd
      subst hhd
      rcases List.mem_cons.mp hs with rfl | hs'
      · rfl
      · have hn := hg.near x rfl s hs'
        have fs := hfin' s hs
        have fx := hfin' x List.mem_cons_self
        apply sub_zero_key fs fx
        have ht := tolerance_toInt (a := F64.zero) (r := F64.zero) (by decide) (by decide) (by decide) (by decide)
          fs fx
        have hm : relMag F64.zero (Nat.max s.objective.mag x.objective.mag) = 0 := by
          unfold relMag
          rw [show F64.uval F64.zero.mag = 0 from by decide, Nat.zero_mul, F64.roundMag_zero _ F64.scale_pos]
        rw [hm] at ht
        have hz : (tolerance F64.zero F64.zero s.objective x.objective).toInt = 0 := by
          rcases ht.2 with h | h
          · exact h.1
          · rw [h.1]; decide
        have hle := (F64.le_iff.mp hn).2.2
        rw [F64.abs_key] at hle
        have hk : (tolerance F64.zero F64.zero s.objective x.objective).key ≤ 0 := by
          have := @F64.toInt_le_iff (tolerance F64.zero F64.zero s.objective x.objective) F64.zero
          have hz' : F64.zero.key = 0 := by decide
          have hz'' : F64.zero.toInt = 0 := by decide
          omega
        have hle' : |(s.objective.sub x.objective).key| ≤
          (tolerance F64.zero F64.zero s.objective x.objective).key := hle
        have := abs_nonneg (s.objective.sub x.objective).key
        exact abs_eq_zero.mp (by omega)
  rw [← h]
  unfold SortedByObjective
  rw [List.pairwise_map]
  refine List.pairwise_of_forall_mem_list ?_
  intro x hx y hy
  cases set with
  | nil => cases hx
  | cons z tl =>
    have h1 := hkey z rfl x hx
    have h2 := hkey z rfl y hy
    exact F64.le_iff.mpr ⟨F64.fin_not_nan (hfin' x hx), F64.fin_not_nan (hfin' y hy), by
      show x.objective.key ≤ y.objective.key
      omega⟩

open GS.Witness in
/-- Local search on the constant objective that reports `1 + 1e-9` at `1` and `1` elsewhere. -/
def tilted (_ : SolverType) (_ : SolverConfig) (p : Pt 1) : Except LErr (Sol 1 × Nat) :=
  .ok (⟨p, if p 0 = num 1 then F64.lit 1000000001 1000000000 else num 1⟩, 1)

/-- Default tolerances, four iterations, six points. -/
def tiltedArgs (absTol relTol : F64) : Args 1 where
  problem := flat
  params := ⟨4, 6, 2, F64.lit 1 5, F64.lit 3 4, absTol, relTol⟩

/-- The returned solutions, if any. -/
def returned (r : Py.Result n) : List PySol := match r.value with
  | .ok l => l
  | .error _ => []

theorem returned_ok {r : Py.Result n} (h : returned r ≠ []) : r.value = .ok (returned r) := by
  unfold returned at *
  split <;> simp_all

/-- C75 is violated: with the default tolerances `optimize` can return a first solution that is not the best. -/
theorem C75_violated : ∃ (lower : Char → List Char) (e : Env 1) (a : Args 1) (l : List PySol),
    UnicodeLower lower ∧ e.rt.Valid ∧ a.params.absTol = F64.lit 1 (10 ^ 8) ∧ a.params.relTol = F64.lit 1 (10 ^ 6) ∧
      (optimize lower e a).value = .ok l ∧ (∀ s ∈ l, s.objective.isFinite = true) ∧ ¬ SortedByObjective l := by
  refine ⟨demoLower, Witness.env tilted, tiltedArgs (F64.lit 1 (10 ^ 8)) (F64.lit 1 (10 ^ 6)), _, demoLower_ok,
    Witness.rt_valid, rfl, rfl, returned_ok (by decide +kernel), by decide +kernel, by decide +kernel⟩

/-- With zero tolerances the same problem gives two equal objectives. -/
example : (optimize demoLower (Witness.env tilted) (tiltedArgs F64.zero F64.zero)).value =
      .ok (returned (optimize demoLower (Witness.env tilted) (tiltedArgs F64.zero F64.zero))) ∧
    (returned (optimize demoLower (Witness.env tilted) (tiltedArgs F64.zero F64.zero))).length = 2 ∧
    ∀ s ∈ returned (optimize demoLower (Witness.env tilted) (tiltedArgs F64.zero F64.zero)),
      s.objective.isFinite = true :=
  ⟨returned_ok (by decide +kernel), by decide +kernel, by decide +kernel⟩

/-! ### C78: observers -/

/-- The last Python function set by `with_callback`. -/
def lastPython (ops : List PyObsOp) : Option Nat :=
  ops.foldl (fun c op => match op with | .callback f => some f | _ => c) none

/-- The built-in callback in force: the last one chosen; setting a frequency chooses the default one if none was. -/
def lastBuiltin (ops : List PyObsOp) : Option Nat :=
  ops.foldl (fun c op => match op with
    | .defaultCallback => some defaultCb
    | .stage1Callback => some stage1Cb
    | .stage2Callback => some stage2Cb
    | .frequency _ => some (c.getD defaultCb)
    | _ => c) none

/-- The observer after the given calls. -/
def observerAfter (ops : List PyObsOp) : PyObs n := ops.foldl PyObs.apply PyObs.new

/-- C78 (partial): the callback used by `optimize` is the last Python function set, and if there is none the last
built-in one.  Missing: a built-in callback chosen after a Python function is ignored (`C78_violated`). -/
theorem C78_callback_partial (ops : List PyObsOp) :
    (observerAfter ops : PyObs n).cloneInner.callback = match lastPython ops with
      | some f => some (pyCb f)
      | none => lastBuiltin ops := by
  have key : (observerAfter ops : PyObs n).pythonCallback = lastPython ops ∧
      (observerAfter ops : PyObs n).inner.callback = lastBuiltin ops := by
    unfold observerAfter lastPython lastBuiltin
    induction ops using List.reverseRecOn with
    | nil => exact ⟨rfl, rfl⟩
    | append_singleton ops op ih =>
      simp only [List.foldl_append, List.foldl_cons, List.foldl_nil]
      rw [← ih.1, ← ih.2]
      constructor
      · cases op <;> rfl
      · cases op <;> try rfl
        simp only [PyObs.apply, Obs.withFrequency]
        cases h : (List.foldl PyObs.apply PyObs.new ops : PyObs n).inner.callback <;> simp [h]
        rfl
  unfold PyObs.cloneInner
  rw [key.1]
  cases lastPython ops with
  | some f => rfl
  | none => exact key.2

/-- C78 is violated: choosing the default callback after a Python function has no effect. -/
theorem C78_violated (f : Nat) :
    (observerAfter [.callback f, .defaultCallback] : PyObs n).cloneInner.callback = some (pyCb f) ∧
      pyCb f ≠ defaultCb := ⟨rfl, by unfold pyCb defaultCb; omega⟩

example : (observerAfter [.stage2Tracking, .defaultCallback, .stage1Callback] : PyObs n).cloneInner.callback =
    some stage1Cb := C78_callback_partial _

end GS.Props
