/- Properties of the local solver runner (C61-C65, C73).

The solver crates are an arbitrary `Lib`; what the user can observe is the result of the call and the
evaluations of their problem, in order. -/
import Verif.Lemmas.Runner
import Mathlib.Data.List.Nodup

namespace GS.Props
open GS GS.Runner

/-! ### Specifications -/

/-- The solver a configuration is for. -/
def configKind : SolverConfig → SolverType
  | .lbfgs .. => .lbfgs
  | .nelderMead .. => .nelderMead
  | .steepestDescent .. => .steepestDescent
  | .trustRegion .. => .trustRegion
  | .newtonCG .. => .newtonCG
  | .cobyla .. => .cobyla

/-- The algorithm that a constructor call creates (line searches are not algorithms of their own). -/
def algorithm : Call → Option SolverType
  | .lbfgs _ => some .lbfgs
  | .nelderMead _ => some .nelderMead
  | .steepestDescent => some .steepestDescent
  | .trustRegion _ => some .trustRegion
  | .newtonCG => some .newtonCG
  | _ => none

/-- The "invalid configuration" error belonging to a solver. -/
def configError : LErr → Option SolverType
  | .invalidLBFGS => some .lbfgs
  | .invalidNelderMead => some .nelderMead
  | .invalidSteepestDescent => some .steepestDescent
  | .invalidTrustRegion => some .trustRegion
  | .invalidNewtonCG => some .newtonCG
  | .invalidCOBYLA => some .cobyla
  | .runFailed => none
  | .noSolution => none
  | .panicked => none

/-- A library that accepts every setting and whose solvers stop immediately, for demonstrations. -/
def idleLib : Lib where
  accepts _ _ := true
  run _ p _ := .cost (p.getD []) fun v => .done p v
  minimize c _ := .cost c.x0 fun v => .done c.x0 v

/-- A library that rejects every setting. -/
def strictLib : Lib := { idleLib with accepts := fun _ _ => false }

/-- The problem `x ↦ x₀` (an error for the empty point) with bounds `[0, 1]`, for demonstrations. -/
def headProb : Prob where
  objective
    | [] => .error ⟨7⟩
    | x :: _ => .ok x
  gradient x := .ok (x.map fun _ => F64.one)
  hessian x := .ok (x.map fun _ => x.map fun _ => F64.zero)
  bounds := [[F64.zero, F64.one]]
  constraints := [fun x => x.headD F64.zero]

/-! ### C61 -/

/-- C61: a configuration of another solver yields the requested solver's error, without any evaluation. -/
theorem C61_mismatch (lib : Lib) (p : Prob) (ty : SolverType) (cfg : SolverConfig) (x0 : Vec) (track : Bool)
    (h : configKind cfg ≠ ty) :
    (∃ e, (solveWithTracking lib p ty cfg x0 track).result = .error e ∧ configError e = some ty) ∧
      (solveWithTracking lib p ty cfg x0 track).queries = [] := by
  cases ty <;> cases cfg <;>
    first
    | exact absurd rfl h
    | exact ⟨⟨_, rfl, rfl⟩, rfl⟩

example : configKind (.steepestDescent 5 (.moreThuente F64.one F64.one F64.one [])) ≠ .cobyla := by decide

theorem lsCalls_algorithm (lo hi : F64) (m : LineSearchMethod) : (lsCalls lo hi m).filterMap algorithm = [] := by
  cases m <;> rfl

/-- C61: with a configuration for the requested (argmin) solver, either setting it up fails and nothing is
evaluated, or the run is the library's run of a solver built with exactly one algorithm, the requested
one. -/
theorem C61_dispatch (lib : Lib) (p : Prob) (ty : SolverType) (cfg : SolverConfig) (x0 : Vec) (track : Bool)
    (hk : configKind cfg = ty) (hc : ty ≠ .cobyla) :
    ((∃ e, (solveWithTracking lib p ty cfg x0 track).result = .error e) ∧
        (solveWithTracking lib p ty cfg x0 track).queries = []) ∨
      ∃ calls start maxIter, calls.filterMap algorithm = [ty] ∧
        ∀ track, (solveWithTracking lib p ty cfg x0 track).result.map (·.1) =
            ((lib.run calls start maxIter).exec p none).1 ∧
          (solveWithTracking lib p ty cfg x0 track).queries =
            ((lib.run calls start maxIter).exec p none).2.2 := by
  rw [solve_argmin lib p hc]
  cases hs : setup lib ty x0 cfg with
  | error e => exact Or.inl ⟨⟨e, rfl⟩, rfl⟩
  | ok s =>
    refine Or.inr ⟨s.calls, s.param, s.maxIter, ?_, fun track => ?_⟩
    · subst hk
      cases cfg with
      | lbfgs m tg tc hs' l1 ls =>
        obtain ⟨lo, hi, r, _, rfl⟩ := setupLbfgs_ok hs
        cases l1 <;>
          simp [List.filterMap_append, lsCalls_algorithm, algorithm, configKind]
      | nelderMead d sd m al ga rh si => rw [setupNelderMead_ok hs]; rfl
      | steepestDescent m ls =>
        obtain ⟨lo, hi, r, _, rfl⟩ := setupSteepest_ok hs
        simp [List.filterMap_append, lsCalls_algorithm, algorithm, configKind]
      | trustRegion me m ra mr et => rw [setupTrust_ok hs]; rfl
      | newtonCG m cu tl ls =>
        cases ls with
        | moreThuente c1 c2 w b => obtain ⟨lo, hi, r, _, rfl⟩ := setupNewtonMT_ok hs; rfl
        | hagerZhang d si ep th ga et b => obtain ⟨lo, hi, r, _, rfl⟩ := setupNewtonHZ_ok (cu := cu) (tl := tl) hs; rfl
      | cobyla => exact absurd rfl hc
    · rw [solve_argmin lib p hc, hs]
      obtain ⟨h1, h2, _⟩ := exec_counter p (lib.run s.calls s.param s.maxIter) (counter track)
      unfold execute
      dsimp only
      rw [h1, h2]
      exact ⟨by cases ((lib.run s.calls s.param s.maxIter).exec p none).1 <;> rfl, rfl⟩

/-- C61: with a COBYLA configuration, either nothing is evaluated and an error is returned, or the run is
COBYLA's, from the given start point. -/
theorem C61_dispatch_cobyla (lib : Lib) (p : Prob) (cfg : SolverConfig) (x0 : Vec) (track : Bool) :
    ((∃ e, (solveWithTracking lib p .cobyla cfg x0 track).result = .error e) ∧
        (solveWithTracking lib p .cobyla cfg x0 track).queries = []) ∨
      ∃ args : Cobyla, args.x0 = x0 ∧
        ∀ track, (solveWithTracking lib p .cobyla cfg x0 track).result.map (·.1) =
            ((lib.minimize args p.constraints.length).exec p none).1 ∧
          (solveWithTracking lib p .cobyla cfg x0 track).queries =
            ((lib.minimize args p.constraints.length).exec p none).2.2 := by
  show ((∃ e, (solveCobyla lib p track x0 cfg).result = .error e) ∧ _) ∨ _
  cases hs : setupCobyla p x0 cfg with
  | error e =>
    left
    unfold solveWithTracking solveCobyla
    dsimp only
    rw [hs]
    exact ⟨⟨e, rfl⟩, rfl⟩
  | ok s =>
    right
    refine ⟨s, ?_, fun track => ?_⟩
    · cases cfg with
      | cobyla m st fr fa xr xa => obtain ⟨bs, rfl⟩ := setupCobyla_ok hs; rfl
      | _ => cases hs
    · obtain ⟨h1, h2, _⟩ := cexec_counter p (lib.minimize s p.constraints.length) (counter track)
      unfold solveWithTracking solveCobyla
      dsimp only
      rw [hs]
      dsimp only
      rw [h1, h2]
      exact ⟨by cases ((lib.minimize s p.constraints.length).exec p none).1 <;> rfl, rfl⟩

/-- A run that reaches the solver: steepest descent and COBYLA on the problem `x ↦ x₀`. -/
example : (solveWithTracking idleLib headProb .steepestDescent
      (.steepestDescent 5 (.moreThuente F64.one F64.one F64.one [F64.zero, F64.one])) [F64.two] true).queries =
        [.cost [F64.two]] ∧
    (solveWithTracking idleLib headProb .cobyla
      (.cobyla 5 F64.one F64.one F64.one F64.one []) [F64.two] true).queries = [.cost [F64.two]] := by
  decide +kernel

/-! ### C62 -/

/-- The bounds of a line search are a pair, as documented. -/
def PairBounds : LineSearchMethod → Prop
  | .moreThuente _ _ _ b => b.length = 2
  | .hagerZhang _ _ _ _ _ _ b => b.length = 2

/-- Configurations all of whose settings are used. -/
def Regular : SolverConfig → Prop
  | .lbfgs _ _ _ _ _ ls => PairBounds ls
  | .nelderMead delta _ _ _ _ _ _ => delta.isNaN = false
  | .steepestDescent _ ls => PairBounds ls
  | .trustRegion .. => True
  | .newtonCG _ _ _ (.moreThuente _ _ _ b) => b.length = 2
  | .newtonCG _ _ _ (.hagerZhang ..) => False
  | .cobyla .. => True

/-- A library that accepts everything and succeeds exactly for one set-up. -/
def pickyLib (s : Setup) : Lib where
  accepts _ _ := true
  run c p m := if (⟨c, p, m⟩ : Setup) = s then .done (some []) F64.zero else .fail
  minimize _ _ := .fail

def pickyCobyla (s : Cobyla) : Lib where
  accepts _ _ := true
  run _ _ _ := .fail
  minimize c _ := if c = s then .done [] F64.zero else .fail

theorem picky_same {ty : SolverType} (hty : ty ≠ .cobyla) {c1 c2 : SolverConfig} {x0 : Vec} {s : Setup}
    (h : ∀ lib p x0 track, solveWithTracking lib p ty c1 x0 track = solveWithTracking lib p ty c2 x0 track)
    (h1 : setup (pickyLib s) ty x0 c1 = .ok s) : setup (pickyLib s) ty x0 c2 = .ok s := by
  have := h (pickyLib s) headProb x0 false
  rw [solve_argmin _ _ hty, solve_argmin _ _ hty, h1] at this
  cases h2 : setup (pickyLib s) ty x0 c2 with
  | error e =>
    rw [h2] at this
    have := congrArg Res.result this
    unfold execute pickyLib at this
    dsimp only at this
    rw [if_pos rfl] at this
    cases this
  | ok s2 =>
    rw [h2] at this
    have := congrArg Res.result this
    unfold execute pickyLib at this
    dsimp only at this
    rw [if_pos rfl] at this
    by_cases hs : (⟨s2.calls, s2.param, s2.maxIter⟩ : Setup) = s
    · rw [← hs]
    · rw [if_neg hs] at this
      cases this

theorem pair_cases {b : List F64} (h : b.length = 2) : ∃ lo hi, b = [lo, hi] := by
  match b, h with
  | [lo, hi], _ => exact ⟨lo, hi, rfl⟩

theorem lineSearch_accepts (s : Setup) (e : LErr) {m : LineSearchMethod} (h : PairBounds m) :
    ∃ lo hi, lsBounds m = [lo, hi] ∧ lineSearch (pickyLib s) e m = .ok (lsCalls lo hi m) := by
  cases m with
  | moreThuente c1 c2 w b => obtain ⟨lo, hi, rfl⟩ := pair_cases h; exact ⟨lo, hi, rfl, rfl⟩
  | hagerZhang d si ep th ga et b => obtain ⟨lo, hi, rfl⟩ := pair_cases h; exact ⟨lo, hi, rfl, rfl⟩

/-- Line searches with pairs of bounds are determined by the calls that set them up, also as a prefix. -/
theorem lsCalls_inj {m1 m2 : LineSearchMethod} {a b c d : F64} {r1 r2 : List Call}
    (h1 : lsBounds m1 = [a, b]) (h2 : PairBounds m2) (h2' : lsBounds m2 = c :: d :: r) 
    (h : lsCalls a b m1 ++ r1 = lsCalls c d m2 ++ r2) : m1 = m2 ∧ r1 = r2 := by
  cases m1 <;> cases m2 <;> obtain ⟨lo, hi, rfl⟩ := pair_cases h2 <;> simp_all [lsCalls, lsBounds]

/-- C62 (regular configurations): two configurations that no solver library, problem or start point can tell
apart are equal, i.e. no setting is ignored.  Missing: Newton-CG with the Hager-Zhang line search, where
two settings are ignored (`C62_violated`), line-search bounds that are not a pair (`C62_bounds_violated`)
and a NaN `simplex_delta` (whose payload is lost in the first addition). -/
theorem C62_no_setting_ignored_partial (c1 c2 : SolverConfig) (r1 : Regular c1) (r2 : Regular c2)
    (h : ∀ lib p x0 track, solveWithTracking lib p (configKind c1) c1 x0 track =
      solveWithTracking lib p (configKind c1) c2 x0 track) : c1 = c2 := by
  cases c1 with
  | lbfgs m tg tc hs l1 ls =>
    obtain ⟨lo, hi, hb, hl⟩ : ∃ lo hi, lsBounds ls = [lo, hi] ∧ ∀ s e,
        lineSearch (pickyLib s) e ls = .ok (lsCalls lo hi ls) := by
      obtain ⟨lo, hi, hb, _⟩ := lineSearch_accepts ⟨[], none, 0⟩ .runFailed r1
      refine ⟨lo, hi, hb, fun s e => ?_⟩
      obtain ⟨lo', hi', hb', hl⟩ := lineSearch_accepts s e r1
      rw [hb] at hb'
      cases hb'
      exact hl
    have := picky_same (ty := .lbfgs) (by decide) (x0 := []) (s := ⟨lsCalls lo hi ls ++ [.lbfgs hs,
      .withToleranceCost tc, .withToleranceGrad tg] ++ (l1.map Call.withL1).toList, some [], m⟩) h (by
        unfold setup setupLbfgs
        dsimp only [configKind]
        rw [hl]
        cases l1 <;> simp [step, pickyLib, l1Step, bind, Except.bind, pure, Except.pure])
    cases c2 with
    | lbfgs m' tg' tc' hs' l1' ls' =>
      obtain ⟨lo', hi', r, hb', he⟩ := setupLbfgs_ok this
      simp only [Setup.mk.injEq, List.append_assoc] at he
      obtain ⟨he, -, rfl⟩ := he
      obtain ⟨rfl, he⟩ := lsCalls_inj hb r2 hb' he
      cases l1 <;> cases l1' <;> simp_all
    | _ => cases this
  | nelderMead d sd m al ga rh si =>
    have := picky_same (ty := .nelderMead) (by decide) (x0 := [F64.negZero]) (s := ⟨[.nelderMead (simplex
      [F64.negZero] d), .withSdTolerance sd, .withAlpha al, .withGamma ga, .withRho rh, .withSigma si],
      none, m⟩) h rfl
    cases c2 with
    | nelderMead d' sd' m' al' ga' rh' si' =>
      have he := setupNelderMead_ok this
      simp only [Setup.mk.injEq, List.cons.injEq, Call.nelderMead.injEq, Call.withSdTolerance.injEq,
        Call.withAlpha.injEq, Call.withGamma.injEq, Call.withRho.injEq, Call.withSigma.injEq] at he
      obtain ⟨⟨hd, rfl, rfl, rfl, rfl, rfl, -⟩, -, rfl⟩ := he
      have hd : [F64.negZero.add d] = [F64.negZero.add d'] := by
        have := congrArg (fun l : List Vec => l.getD 1 []) hd
        exact this
      rw [negZero_add d r1, negZero_add d' r2] at hd
      cases hd
      rfl
    | _ => cases this
  | steepestDescent m ls =>
    obtain ⟨lo, hi, hb, hl⟩ : ∃ lo hi, lsBounds ls = [lo, hi] ∧ ∀ s e,
        lineSearch (pickyLib s) e ls = .ok (lsCalls lo hi ls) := by
      obtain ⟨lo, hi, hb, _⟩ := lineSearch_accepts ⟨[], none, 0⟩ .runFailed r1
      refine ⟨lo, hi, hb, fun s e => ?_⟩
      obtain ⟨lo', hi', hb', hl⟩ := lineSearch_accepts s e r1
      rw [hb] at hb'
      cases hb'
      exact hl
    have := picky_same (ty := .steepestDescent) (by decide) (x0 := []) (s := ⟨lsCalls lo hi ls ++
      [.steepestDescent], some [], m⟩) h (by
        unfold setup setupSteepest
        dsimp only [configKind]
        rw [hl]
        rfl)
    cases c2 with
    | steepestDescent m' ls' =>
      obtain ⟨lo', hi', r, hb', he⟩ := setupSteepest_ok this
      simp only [Setup.mk.injEq] at he
      obtain ⟨he, -, rfl⟩ := he
      obtain ⟨rfl, -⟩ := lsCalls_inj hb r2 hb' he
      rfl
    | _ => cases this
  | trustRegion me m ra mr et =>
    have := picky_same (ty := .trustRegion) (by decide) (x0 := []) (s := ⟨[.trustRegion me, .withRadius ra,
      .withMaxRadius mr, .withEta et], some [], m⟩) h rfl
    cases c2 with
    | trustRegion me' m' ra' mr' et' =>
      have he := setupTrust_ok this
      simp_all
    | _ => cases this
  | newtonCG m cu tl ls =>
    cases ls with
    | hagerZhang => exact r1.elim
    | moreThuente a1 a2 w b =>
      obtain ⟨lo, hi, rfl⟩ := pair_cases r1
      have := picky_same (ty := .newtonCG) (by decide) (x0 := []) (s := ⟨lsCalls lo hi (.moreThuente a1 a2 w
        [lo, hi]) ++ [.newtonCG, .withCurvatureThreshold cu, .withTolerance tl], some [], m⟩) h rfl
      cases c2 with
      | newtonCG m' cu' tl' ls' =>
        cases ls' with
        | hagerZhang => exact r2.elim
        | moreThuente a1' a2' w' b' =>
          obtain ⟨lo', hi', rfl⟩ := pair_cases r2
          obtain ⟨lo'', hi'', r, hb', he⟩ := setupNewtonMT_ok this
          cases hb'
          simp only [lsCalls] at he
          simp_all
      | _ => cases this
  | cobyla m st fr fa xr xa =>
    have := h (pickyCobyla ⟨[F64.zero], [(F64.zero, F64.one)], m, st, fr, fa, xr, xa⟩) headProb [F64.zero] false
    have h1 : setupCobyla headProb [F64.zero] (.cobyla m st fr fa xr xa) =
        .ok ⟨[F64.zero], [(F64.zero, F64.one)], m, st, fr, fa, xr, xa⟩ := by
      cases xa <;> rfl
    have := congrArg Res.result this
    simp only [configKind, solveWithTracking, solveCobyla, h1] at this
    cases c2 with
    | cobyla m' st' fr' fa' xr' xa' =>
      have h2 : setupCobyla headProb [F64.zero] (.cobyla m' st' fr' fa' xr' xa') =
          .ok ⟨[F64.zero], [(F64.zero, F64.one)], m', st', fr', fa', xr', xa'⟩ := by
        cases xa' <;> rfl
      rw [h2] at this
      simp only [pickyCobyla] at this
      rw [if_pos trivial] at this
      by_cases hs : (⟨[F64.zero], [(F64.zero, F64.one)], m', st', fr', fa', xr', xa'⟩ : Cobyla) =
          ⟨[F64.zero], [(F64.zero, F64.one)], m, st, fr, fa, xr, xa⟩
      · simp_all
      · rw [if_neg hs] at this
        cases this
    | _ =>
      simp only [pickyCobyla] at this
      rw [if_pos trivial] at this
      cases this

example : Regular (.lbfgs 300 F64.one F64.one 10 none (.moreThuente F64.one F64.one F64.one [F64.zero, F64.inf])) :=
  rfl
example : Regular (.nelderMead F64.one F64.one 300 F64.one F64.two F64.one F64.one) := by
  show F64.one.isNaN = false; decide +kernel

/-- C62 is violated by Newton-CG with the Hager-Zhang line search: curvature threshold and tolerance have no
effect, whatever the library, problem and start point. -/
theorem C62_violated (lib : Lib) (p : Prob) (x0 : Vec) (track : Bool) (maxIter : Nat)
    (cu cu' tl tl' d si ep th ga et : F64) (b : Vec) :
    solveWithTracking lib p .newtonCG (.newtonCG maxIter cu tl (.hagerZhang d si ep th ga et b)) x0 track =
      solveWithTracking lib p .newtonCG (.newtonCG maxIter cu' tl' (.hagerZhang d si ep th ga et b)) x0 track :=
  rfl

/-- C62 is also violated by line-search bounds with more than two entries: the rest is ignored. -/
theorem C62_bounds_violated (lib : Lib) (p : Prob) (x0 : Vec) (track : Bool) (maxIter : Nat)
    (c1 c2 w lo hi : F64) (r r' : Vec) :
    solveWithTracking lib p .steepestDescent (.steepestDescent maxIter (.moreThuente c1 c2 w (lo :: hi :: r)))
        x0 track =
      solveWithTracking lib p .steepestDescent (.steepestDescent maxIter (.moreThuente c1 c2 w (lo :: hi :: r')))
        x0 track := rfl

/-! ### C63 -/

/-- Number of calls of the objective. -/
def objectiveCalls : List Query → Nat
  | [] => 0
  | .cost _ :: q => objectiveCalls q + 1
  | .gradient _ :: q => objectiveCalls q
  | .hessian _ :: q => objectiveCalls q
  | .constraint _ _ :: q => objectiveCalls q

theorem objectiveCalls_eq (q : List Query) : objectiveCalls q = costs q := by
  induction q with
  | nil => rfl
  | cons a q ih =>
    cases a <;> simp only [objectiveCalls, ih, costs_cost, costs_gradient, costs_hessian, costs_constraint]

theorem tracking (lib : Lib) (p : Prob) (ty : SolverType) (cfg : SolverConfig) (x0 : Vec) :
    ∃ (r : Except LErr (Vec × F64)) (q : List Query), ∀ track,
      solveWithTracking lib p ty cfg x0 track =
        ⟨r.map fun s => (s, if track then objectiveCalls q else 0), q⟩ := by
  by_cases hty : ty = .cobyla
  · subst hty
    cases hs : setupCobyla p x0 cfg with
    | error e =>
      refine ⟨.error e, [], fun track => ?_⟩
      simp only [solveWithTracking, solveCobyla, hs]
      rfl
    | ok s =>
      refine ⟨((lib.minimize s p.constraints.length).exec p none).1,
        ((lib.minimize s p.constraints.length).exec p none).2.2, fun track => ?_⟩
      obtain ⟨h1, h2, h3⟩ := cexec_counter p (lib.minimize s p.constraints.length) (counter track)
      simp only [solveWithTracking, solveCobyla, hs]
      rw [h1, h2, h3, objectiveCalls_eq]
      cases track <;> simp [counter]
  · cases hs : setup lib ty x0 cfg with
    | error e =>
      refine ⟨.error e, [], fun track => ?_⟩
      rw [solve_argmin lib p hty, hs]
      rfl
    | ok s =>
      refine ⟨((lib.run s.calls s.param s.maxIter).exec p none).1,
        ((lib.run s.calls s.param s.maxIter).exec p none).2.2, fun track => ?_⟩
      obtain ⟨h1, h2, h3⟩ := exec_counter p (lib.run s.calls s.param s.maxIter) (counter track)
      rw [solve_argmin lib p hty, hs]
      unfold execute
      dsimp only
      rw [h1, h2, h3, objectiveCalls_eq]
      cases track <;> simp [counter]

/-- C63: tracking changes neither the solution or error nor the evaluations made, and plain `solve` agrees. -/
theorem C63_tracking_neutral (lib : Lib) (p : Prob) (ty : SolverType) (cfg : SolverConfig) (x0 : Vec) :
    (solveWithTracking lib p ty cfg x0 true).result.map (·.1) =
        (solveWithTracking lib p ty cfg x0 false).result.map (·.1) ∧
      (solveWithTracking lib p ty cfg x0 true).queries = (solveWithTracking lib p ty cfg x0 false).queries ∧
      solve lib p ty cfg x0 = ((solveWithTracking lib p ty cfg x0 true).result.map (·.1),
        (solveWithTracking lib p ty cfg x0 true).queries) := by
  obtain ⟨r, q, h⟩ := tracking lib p ty cfg x0
  unfold solve
  rw [h, h]
  cases r <;> exact ⟨rfl, rfl, rfl⟩

/-- C63: the reported count is the number of objective calls when tracking is on, and 0 when it is off. -/
theorem C63_count (lib : Lib) (p : Prob) (ty : SolverType) (cfg : SolverConfig) (x0 : Vec) (track : Bool)
    (s : Vec × F64) (k : Nat) (h : (solveWithTracking lib p ty cfg x0 track).result = .ok (s, k)) :
    k = if track then objectiveCalls (solveWithTracking lib p ty cfg x0 track).queries else 0 := by
  obtain ⟨r, q, hr⟩ := tracking lib p ty cfg x0
  rw [hr] at h ⊢
  cases r with
  | error e => cases h
  | ok s' => cases h; rfl

example : (solveWithTracking idleLib headProb .cobyla (.cobyla 5 F64.one F64.one F64.one F64.one []) [F64.two]
    true).result = .ok (([F64.two], F64.two), 1) := by decide +kernel

/-! ### C64 -/

/-- The problem whose failing objective evaluations return `+∞` instead. -/
def withInfinity (p : Prob) : Prob :=
  { p with objective := fun x => match p.objective x with
    | .ok v => .ok v
    | .error _ => .ok F64.inf }

theorem cexec_withInfinity (p : Prob) (t : CTree) (k : Option Nat) :
    t.exec (withInfinity p) k = t.exec p k := by
  induction t generalizing k with
  | done => rfl
  | fail => rfl
  | cost x f ih =>
    unfold CTree.exec
    have : cobylaCost (withInfinity p) x = cobylaCost p x := by
      unfold cobylaCost withInfinity
      dsimp only
      cases p.objective x <;> rfl
    rw [this, ih]
  | constraint i x f ih =>
    unfold CTree.exec
    show (match p.constraints[i]? with | none => _ | some g => _) = _
    cases p.constraints[i]? with
    | none => rfl
    | some g => dsimp only; rw [ih]

/-- C64: COBYLA sees a failing evaluation as `+∞`: the local search is the one on the problem with errors
replaced by `+∞`. -/
theorem C64_cobyla_error_is_infinity (lib : Lib) (p : Prob) (cfg : SolverConfig) (x0 : Vec) (track : Bool) :
    solveWithTracking lib p .cobyla cfg x0 track =
      solveWithTracking lib (withInfinity p) .cobyla cfg x0 track := by
  have hs : setupCobyla (withInfinity p) x0 cfg = setupCobyla p x0 cfg := by cases cfg <;> rfl
  simp only [solveWithTracking, solveCobyla, hs]
  cases setupCobyla p x0 cfg with
  | error e => rfl
  | ok s =>
    dsimp only
    rw [cexec_withInfinity]
    rfl

/-- A COBYLA run that does not itself give up, whatever objective values (`+∞` included) and constraint
values it is given. -/
inductive Persists (m : Nat) : CTree → Prop
  | done (x c) : Persists m (.done x c)
  | cost (x f) : (∀ v, Persists m (f v)) → Persists m (.cost x f)
  | constraint (i x f) : i < m → (∀ v, Persists m (f v)) → Persists m (.constraint i x f)

theorem persists_ok (p : Prob) {t : CTree} (h : Persists p.constraints.length t) (k : Option Nat) :
    ∃ s, (t.exec p k).1 = .ok s := by
  induction h generalizing k with
  | done x c => exact ⟨_, rfl⟩
  | cost x f _ ih => exact ih _ _
  | constraint i x f hi _ ih =>
    unfold CTree.exec
    rw [List.getElem?_eq_getElem hi]
    exact ih _ _

/-- C64: objective errors never abort a COBYLA search: if the solver does not give up by itself, a search that
is set up correctly returns a solution, whichever evaluations fail. -/
theorem C64_cobyla_survives (lib : Lib) (p : Prob) (m : Nat) (st fr fa xr : F64) (xa x0 : Vec) (track : Bool)
    (hlen : p.bounds.length = x0.length) (hrow : ∀ r ∈ p.bounds, 2 ≤ r.length)
    (hlib : ∀ args, Persists p.constraints.length (lib.minimize args p.constraints.length)) :
    ∃ s, (solveWithTracking lib p .cobyla (.cobyla m st fr fa xr xa) x0 track).result = .ok s := by
  have hr : ∃ bs, rowBounds p.bounds = .ok bs := by
    generalize p.bounds = l at hrow
    induction l with
    | nil => exact ⟨[], rfl⟩
    | cons r rs ih =>
      obtain ⟨bs, hbs⟩ := ih fun q hq => hrow q (List.mem_cons_of_mem _ hq)
      have := hrow r List.mem_cons_self
      match r, this with
      | lo :: hi :: _, _ => exact ⟨(lo, hi) :: bs, by simp [rowBounds, idx2, hbs, bind, Except.bind, pure, Except.pure]⟩
  obtain ⟨bs, hbs⟩ := hr
  have hs : ∃ s, setupCobyla p x0 (.cobyla m st fr fa xr xa) = .ok s := by
    unfold setupCobyla
    dsimp only
    rw [if_neg (fun hne => hne hlen), hbs]
    exact ⟨_, rfl⟩
  obtain ⟨s, hs⟩ := hs
  simp only [solveWithTracking, solveCobyla, hs]
  obtain ⟨q, hq⟩ := persists_ok p (hlib s) (counter track)
  rw [hq]
  exact ⟨_, rfl⟩

example : ∀ args, Persists headProb.constraints.length (idleLib.minimize args headProb.constraints.length) :=
  fun _ => .cost _ _ fun _ => .done _ _

/-- C64: with an argmin solver a failing evaluation (objective, gradient or Hessian) makes the search fail
with `RunFailed`; it is the last evaluation made. -/
theorem C64_argmin_fails (lib : Lib) (p : Prob) (ty : SolverType) (cfg : SolverConfig) (x0 : Vec) (track : Bool)
    (hty : ty ≠ .cobyla) (q : Query) (hq : q ∈ (solveWithTracking lib p ty cfg x0 track).queries)
    (hf : Fails p q) :
    (solveWithTracking lib p ty cfg x0 track).result = .error .runFailed ∧
      (solveWithTracking lib p ty cfg x0 track).queries.getLast? = some q ∧
      ((solveWithTracking lib p ty cfg x0 track).queries.filter (· == q)).length = 1 := by
  rw [solve_argmin lib p hty] at hq ⊢
  cases hs : setup lib ty x0 cfg with
  | error e => rw [hs] at hq; cases hq
  | ok s =>
    rw [hs] at hq
    obtain ⟨h1, h2, h3⟩ := exec_fails p _ _ q hq hf
    unfold execute
    dsimp only
    rw [h1]
    exact ⟨rfl, h2, h3⟩

/-- The same failing evaluation at the empty point, with an argmin solver and with COBYLA. -/
example : (solveWithTracking idleLib headProb .trustRegion (.trustRegion .cauchy 5 F64.one F64.one F64.one) []
      true).result = .error .runFailed ∧
    (solveWithTracking idleLib { headProb with bounds := [] } .cobyla
      (.cobyla 5 F64.one F64.one F64.one F64.one []) [] true).result = .ok (([], F64.inf), 1) ∧
    Fails headProb (.cost []) :=
  ⟨by decide +kernel, by decide +kernel, ⟨_, rfl⟩⟩

/-- C64: if the number of bounds is not the dimension, COBYLA reports it before any evaluation. -/
theorem C64_bounds_mismatch (lib : Lib) (p : Prob) (cfg : SolverConfig) (x0 : Vec) (track : Bool)
    (h : p.bounds.length ≠ x0.length) :
    (solveWithTracking lib p .cobyla cfg x0 track).result = .error .invalidCOBYLA ∧
      (solveWithTracking lib p .cobyla cfg x0 track).queries = [] := by
  have hs : setupCobyla p x0 cfg = .error .invalidCOBYLA := by
    cases cfg <;> first | rfl | exact if_pos h
  unfold solveWithTracking solveCobyla
  dsimp only
  rw [hs]
  exact ⟨rfl, rfl⟩

example : headProb.bounds.length ≠ ([] : Vec).length := by decide

/-! ### C65 -/

/-- C65: the simplex that reaches the Nelder-Mead solver. -/
theorem C65_simplex_reaches_solver (lib : Lib) (x0 : Vec) (d sd al ga rh si : F64) (m : Nat) (s : Setup)
    (h : setup lib .nelderMead x0 (.nelderMead d sd m al ga rh si) = .ok s) :
    s.calls.head? = some (.nelderMead (simplex x0 d)) := by
  rw [setupNelderMead_ok h]
  rfl

/-- C65: the simplex has `n + 1` vertices of dimension `n`: the start point, and for each coordinate the start
point with that coordinate shifted by `simplex_delta`. -/
theorem C65_vertices (x0 : Vec) (d : F64) :
    (simplex x0 d).length = x0.length + 1 ∧ (simplex x0 d)[0]? = some x0 ∧
      ∀ i, i < x0.length → ∃ v, (simplex x0 d)[i + 1]? = some v ∧ v.length = x0.length ∧
        v[i]? = (x0[i]?).map (·.add d) ∧ ∀ j, j ≠ i → v[j]? = x0[j]? := by
  refine ⟨by simp [simplex], rfl, fun i hi => ⟨x0.modify i (·.add d), ?_, by simp, ?_, fun j hj => ?_⟩⟩
  · simp [simplex, hi]
  · simp [List.getElem?_modify]
  · rw [List.getElem?_modify]
    simp [Ne.symm hj]

/-- C65 (exact): the vertices are pairwise distinct exactly when every coordinate changes under the shift. -/
theorem C65_distinct_iff (x0 : Vec) (d : F64) :
    (simplex x0 d).Nodup ↔ ∀ x ∈ x0, x.add d ≠ x := by
  obtain ⟨hl, h0, hv⟩ := C65_vertices x0 d
  have hfix : ∀ i (hi : i < x0.length), x0[i].add d = x0[i] → (simplex x0 d)[i + 1]? = some x0 := by
    intro i hi he
    obtain ⟨v, hv1, hv2, hv3, hv4⟩ := hv i hi
    rw [hv1]
    congr 1
    apply List.ext_getElem?
    intro j
    by_cases hj : j = i
    · subst hj; rw [hv3, List.getElem?_eq_getElem hi, Option.map_some, he]
    · exact hv4 j hj
  rw [List.nodup_iff_getElem?_ne_getElem?]
  constructor
  · intro h x hx he
    obtain ⟨i, hi, rfl⟩ := List.mem_iff_getElem.mp hx
    exact h 0 (i + 1) (by omega) (by omega) (by rw [h0, hfix i hi he])
  · intro h a b hab hb
    obtain ⟨b, rfl⟩ : ∃ k, b = k + 1 := ⟨b - 1, by omega⟩
    obtain ⟨v, hv1, _, hv3, _⟩ := hv b (by omega)
    have hbl : b < x0.length := by omega
    have hne : v[b]? ≠ x0[b]? := by
      rw [hv3, List.getElem?_eq_getElem hbl, Option.map_some]
      intro he
      exact h _ (List.getElem_mem hbl) (Option.some.inj he)
    rw [hv1]
    cases a with
    | zero =>
      rw [h0]
      intro he
      cases he
      exact hne rfl
    | succ a =>
      obtain ⟨w, hw1, _, _, hw4⟩ := hv a (by omega)
      rw [hw1]
      intro he
      cases he
      exact hne (hw4 b (by omega))

/-- C65 (steps that are not absorbed): if the start point and `simplex_delta` are finite, `simplex_delta` is
not zero and no coordinate exceeds `2^52` times its absolute value, the vertices are pairwise distinct as
points: any two of them differ numerically in some coordinate.  Missing: for other start points the claim is
false (`C65_violated`); `C65_distinct_iff` is the exact condition. -/
theorem C65_distinct_partial (x0 : Vec) (d : F64) (hx : ∀ x ∈ x0, x.isFinite = true) (hd : d.isFinite = true)
    (h0 : d.feq F64.zero = false)
    (h : ∀ x ∈ x0, x.toInt.natAbs ≤ 2 ^ 52 * d.toInt.natAbs) :
    (simplex x0 d).Nodup ∧ ∀ (a b : Nat) (v w : Vec), a < b → (simplex x0 d)[a]? = some v → (simplex x0 d)[b]? = some w →
      ∃ (j : Nat) (y z : F64), v[j]? = some y ∧ w[j]? = some z ∧ y.feq z = false := by
  have hm : d.mag ≠ 0 := by
    intro hm
    have : d.feq F64.zero = true := by
      rw [F64.feq_iff]
      refine ⟨F64.fin_not_nan hd, by decide +kernel, ?_⟩
      unfold F64.key
      rw [hm]
      cases d.neg <;> rfl
    rw [this] at h0
    cases h0
  refine ⟨(C65_distinct_iff x0 d).mpr fun x hm' he => add_changes (hx x hm') hd hm (h x hm') (by rw [he]), ?_⟩
  intro a b v w hab ha hb
  obtain ⟨hl, hz, hv⟩ := C65_vertices x0 d
  obtain ⟨b, rfl⟩ : ∃ k, b = k + 1 := ⟨b - 1, by omega⟩
  have hbl : b < x0.length := by
    have := (List.getElem?_eq_some_iff.mp hb).1
    omega
  obtain ⟨w', hw1, _, hw3, _⟩ := hv b hbl
  rw [hw1] at hb
  cases hb
  rw [List.getElem?_eq_getElem hbl, Option.map_some] at hw3
  have hvb : v[b]? = some x0[b] := by
    cases a with
    | zero => rw [hz] at ha; cases ha; exact List.getElem?_eq_getElem hbl
    | succ a =>
      obtain ⟨u, hu1, _, _, hu4⟩ := hv a (by omega)
      rw [hu1] at ha
      cases ha
      rw [hu4 b (by omega)]
      exact List.getElem?_eq_getElem hbl
  refine ⟨b, _, _, hvb, hw3, ?_⟩
  rw [Bool.eq_false_iff]
  intro he
  rw [F64.feq_iff] at he
  have hmem := List.getElem_mem hbl
  exact add_changes (hx _ hmem) hd hm (h _ hmem) he.2.2.symm

example : (∀ x ∈ [F64.one, F64.two, F64.zero], x.isFinite = true) ∧ F64.one.isFinite = true ∧
    F64.one.feq F64.zero = false ∧
    ∀ x ∈ [F64.one, F64.two, F64.zero], x.toInt.natAbs ≤ 2 ^ 52 * F64.one.toInt.natAbs := by decide +kernel

/-- C65 is violated by absorption: at `1e17` the default `simplex_delta = 0.1` does not change the coordinate,
so the second vertex is the start point itself. -/
theorem C65_violated : ∃ (x d : F64), x.isFinite = true ∧ d.isFinite = true ∧ F64.lt F64.zero d = true ∧
    simplex [x] d = [[x], [x]] :=
  ⟨⟨false, 0x4376345785D8A000, by decide⟩, ⟨false, 0x3FB999999999999A, by decide⟩, by decide +kernel⟩

/-! ### C73 -/

theorem exec_error (p : Prob) (t : Tree) (k : Option Nat) (e : LErr) (h : (t.exec p k).1 = .error e) :
    configError e = none := by
  induction t generalizing k with
  | done b c => cases b <;> cases h; rfl
  | fail => cases h; rfl
  | cost x f ih =>
    unfold Tree.exec at h
    cases hx : p.objective x with
    | error e => rw [hx] at h; cases h; rfl
    | ok v => rw [hx] at h; exact ih v _ h
  | gradient x f ih =>
    unfold Tree.exec at h
    cases hx : p.gradient x with
    | error e => rw [hx] at h; cases h; rfl
    | ok v => rw [hx] at h; exact ih v _ h
  | hessian x f ih =>
    unfold Tree.exec at h
    cases hx : p.hessian x with
    | error e => rw [hx] at h; cases h; rfl
    | ok v => rw [hx] at h; exact ih v _ h

theorem cexec_error (p : Prob) (t : CTree) (k : Option Nat) (e : LErr) (h : (t.exec p k).1 = .error e) :
    configError e = none := by
  induction t generalizing k with
  | done b c => cases h
  | fail => cases h; rfl
  | cost x f ih => exact ih _ _ h
  | constraint i x f ih =>
    unfold CTree.exec at h
    cases hx : p.constraints[i]? with
    | none => rw [hx] at h; cases h; rfl
    | some g => rw [hx] at h; exact ih _ _ h

theorem bind_error {ε α β : Type _} {x : Except ε α} {f : α → Except ε β} {e : ε}
    (h : (x >>= f) = .error e) : x = .error e ∨ ∃ a, x = .ok a ∧ f a = .error e := by
  cases x with
  | error e' => cases h; exact Or.inl rfl
  | ok a => exact Or.inr ⟨a, rfl, h⟩

theorem step_error {lib : Lib} {e e' : LErr} {c : Call} {s : List Call} (h : step lib e c s = .error e') :
    e' = e := by
  unfold step at h
  split at h
  · cases h
  · cases h; rfl

theorem idx2_error {b : Vec} {e : LErr} (h : idx2 b = .error e) : e = .panicked := by
  unfold idx2 at h
  split at h <;> cases h
  rfl

theorem lineSearch_error {lib : Lib} {e e' : LErr} {m : LineSearchMethod}
    (h : lineSearch lib e m = .error e') : e' = e ∨ e' = .panicked := by
  cases m with
  | moreThuente c1 c2 w b =>
    rcases bind_error h with h | ⟨_, _, h⟩
    · exact Or.inl (step_error h)
    rcases bind_error h with h | ⟨_, _, h⟩
    · exact Or.inr (idx2_error h)
    rcases bind_error h with h | ⟨_, _, h⟩
    · exact Or.inl (step_error h)
    exact Or.inl (step_error h)
  | hagerZhang d si ep th ga et b =>
    rcases bind_error h with h | ⟨_, _, h⟩
    · exact Or.inl (step_error h)
    rcases bind_error h with h | ⟨_, _, h⟩
    · exact Or.inl (step_error h)
    rcases bind_error h with h | ⟨_, _, h⟩
    · exact Or.inl (step_error h)
    rcases bind_error h with h | ⟨_, _, h⟩
    · exact Or.inl (step_error h)
    rcases bind_error h with h | ⟨_, _, h⟩
    · exact Or.inl (step_error h)
    rcases bind_error h with h | ⟨_, _, h⟩
    · exact Or.inr (idx2_error h)
    exact Or.inl (step_error h)

theorem setup_error {lib : Lib} {ty : SolverType} {x0 : Vec} {cfg : SolverConfig} {e : LErr}
    (hty : ty ≠ .newtonCG) (h : setup lib ty x0 cfg = .error e) : e = invalid ty ∨ e = .panicked := by
  cases ty with
  | cobyla => cases h; exact Or.inl rfl
  | newtonCG => exact absurd rfl hty
  | lbfgs =>
    cases cfg with
    | lbfgs m tg tc hs l1 ls =>
      rcases bind_error h with h | ⟨_, _, h⟩
      · exact lineSearch_error h
      rcases bind_error h with h | ⟨_, _, h⟩
      · exact Or.inl (step_error h)
      rcases bind_error h with h | ⟨_, _, h⟩
      · exact Or.inl (step_error h)
      rcases bind_error h with h | ⟨_, _, h⟩
      · cases l1 with
        | none => cases h
        | some c => exact Or.inl (step_error h)
      cases h
    | _ => cases h; exact Or.inl rfl
  | nelderMead =>
    cases cfg with
    | nelderMead d sd m al ga rh si =>
      rcases bind_error h with h | ⟨_, _, h⟩
      · exact Or.inl (step_error h)
      rcases bind_error h with h | ⟨_, _, h⟩
      · exact Or.inl (step_error h)
      rcases bind_error h with h | ⟨_, _, h⟩
      · exact Or.inl (step_error h)
      rcases bind_error h with h | ⟨_, _, h⟩
      · exact Or.inl (step_error h)
      rcases bind_error h with h | ⟨_, _, h⟩
      · exact Or.inl (step_error h)
      cases h
    | _ => cases h; exact Or.inl rfl
  | steepestDescent =>
    cases cfg with
    | steepestDescent m ls =>
      rcases bind_error h with h | ⟨_, _, h⟩
      · exact lineSearch_error h
      cases h
    | _ => cases h; exact Or.inl rfl
  | trustRegion =>
    cases cfg with
    | trustRegion me m ra mr et =>
      rcases bind_error h with h | ⟨_, _, h⟩
      · exact Or.inl (step_error h)
      rcases bind_error h with h | ⟨_, _, h⟩
      · exact Or.inl (step_error h)
      rcases bind_error h with h | ⟨_, _, h⟩
      · exact Or.inl (step_error h)
      cases h
    | _ => cases h; exact Or.inl rfl

theorem rowBounds_error {l : List Vec} {e : LErr} (h : rowBounds l = .error e) : e = .panicked := by
  induction l with
  | nil => cases h
  | cons r rs ih =>
    rcases bind_error h with h | ⟨_, _, h⟩
    · exact idx2_error h
    rcases bind_error h with h | ⟨_, _, h⟩
    · exact ih h
    cases h

/-- C73 (all solvers but Newton-CG): a configuration error names the requested solver.  Missing: Newton-CG,
for which it is false (`C73_violated`). -/
theorem C73_config_error_names_solver_partial (lib : Lib) (p : Prob) (ty : SolverType) (cfg : SolverConfig)
    (x0 : Vec) (track : Bool) (hty : ty ≠ .newtonCG) (e : LErr) (ty' : SolverType)
    (h : (solveWithTracking lib p ty cfg x0 track).result = .error e) (he : configError e = some ty') :
    ty' = ty := by
  have hinv : configError (invalid ty) = some ty := by cases ty <;> rfl
  by_cases hc : ty = .cobyla
  · subst hc
    cases hs : setupCobyla p x0 cfg with
    | error e' =>
      simp only [solveWithTracking, solveCobyla, hs] at h
      cases h
      cases cfg with
      | cobyla m st fr fa xr xa =>
        unfold setupCobyla at hs
        dsimp only at hs
        split at hs
        · cases hs; cases he; rfl
        · rcases bind_error hs with h | ⟨_, _, h⟩
          · rw [rowBounds_error h] at he; cases he
          · cases h
      | _ => cases hs; cases he; rfl
    | ok s =>
      simp only [solveWithTracking, solveCobyla, hs] at h
      cases hr : ((lib.minimize s p.constraints.length).exec p (counter track)).1 with
      | ok a => rw [hr] at h; cases h
      | error e' =>
        rw [hr] at h
        cases h
        rw [cexec_error p _ _ _ hr] at he
        cases he
  · rw [solve_argmin lib p hc] at h
    cases hs : setup lib ty x0 cfg with
    | error e' =>
      rw [hs] at h
      cases h
      rcases setup_error hty hs with rfl | rfl
      · rw [hinv] at he; cases he; rfl
      · cases he
    | ok s =>
      rw [hs] at h
      unfold execute at h
      dsimp only at h
      cases hr : ((lib.run s.calls s.param s.maxIter).exec p (counter track)).1 with
      | ok a => rw [hr] at h; cases h
      | error e' =>
        rw [hr] at h
        cases h
        rw [exec_error p _ _ _ hr] at he
        cases he

example : (solveWithTracking strictLib headProb .trustRegion (.trustRegion .cauchy 5 F64.one F64.one F64.one) []
    true).result = .error .invalidTrustRegion := rfl

/-- C73 is violated by Newton-CG: a rejected line-search setting is reported as an invalid steepest descent
configuration. -/
theorem C73_violated (lib : Lib) (p : Prob) (x0 : Vec) (track : Bool) (m : Nat) (cu tl c1 c2 w : F64) (b : Vec)
    (h : lib.accepts [.moreThuente] (.withC c1 c2) = false) :
    (solveWithTracking lib p .newtonCG (.newtonCG m cu tl (.moreThuente c1 c2 w b)) x0 track).result =
      .error .invalidSteepestDescent := by
  simp [solveWithTracking, setupNewton, lineSearch, step, h, execute, bind, Except.bind]

example : strictLib.accepts [.moreThuente] (.withC F64.one F64.one) = false := rfl

end GS.Props
