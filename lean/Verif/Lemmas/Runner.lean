/- Lemmas about the local solver runner. -/
import Verif.Model.Runner
import Verif.F64.Round
import Mathlib.Tactic.Ring

namespace GS.Runner
open GS

/-- `Except.bind` succeeds only if both parts do. -/
theorem bind_ok {ε α β : Type _} {x : Except ε α} {f : α → Except ε β} {b : β}
    (h : (x >>= f) = .ok b) : ∃ a, x = .ok a ∧ f a = .ok b := by
  cases x with
  | error e => cases h
  | ok a => exact ⟨a, rfl, h⟩

theorem step_ok {lib : Lib} {e : LErr} {c : Call} {s s' : List Call} (h : step lib e c s = .ok s') :
    s' = s ++ [c] := by
  unfold step at h
  split at h
  · exact (Except.ok.inj h).symm
  · cases h

theorem idx2_ok {b : Vec} {q : F64 × F64} (h : idx2 b = .ok q) : ∃ r, b = q.1 :: q.2 :: r := by
  unfold idx2 at h
  split at h
  · cases h
    exact ⟨_, rfl⟩
  · cases h

/-- The calls that set up a line search with the given bounds. -/
def lsCalls (lo hi : F64) : LineSearchMethod → List Call
  | .moreThuente c1 c2 w _ => [.moreThuente, .withC c1 c2, .withBounds lo hi, .withWidthTolerance w]
  | .hagerZhang delta sigma epsilon theta gamma eta _ => [.hagerZhang, .withDeltaSigma delta sigma,
      .withEpsilon epsilon, .withTheta theta, .withGamma gamma, .withEta eta, .withBounds lo hi]

/-- The bounds of a line search. -/
def lsBounds : LineSearchMethod → Vec
  | .moreThuente _ _ _ b => b
  | .hagerZhang _ _ _ _ _ _ b => b

theorem lineSearch_ok {lib : Lib} {e : LErr} {m : LineSearchMethod} {s : List Call}
    (h : lineSearch lib e m = .ok s) : ∃ lo hi r, lsBounds m = lo :: hi :: r ∧ s = lsCalls lo hi m := by
  cases m with
  | moreThuente c1 c2 w b =>
    obtain ⟨s1, h1, h⟩ := bind_ok h
    obtain ⟨q, h2, h⟩ := bind_ok h
    obtain ⟨s3, h3, h⟩ := bind_ok h
    obtain ⟨r, hr⟩ := idx2_ok h2
    refine ⟨q.1, q.2, r, hr, ?_⟩
    rw [step_ok h, step_ok h3, step_ok h1]; rfl
  | hagerZhang d si ep th ga et b =>
    obtain ⟨s1, h1, h⟩ := bind_ok h
    obtain ⟨s2, h2, h⟩ := bind_ok h
    obtain ⟨s3, h3, h⟩ := bind_ok h
    obtain ⟨s4, h4, h⟩ := bind_ok h
    obtain ⟨s5, h5, h⟩ := bind_ok h
    obtain ⟨q, h6, h⟩ := bind_ok h
    obtain ⟨r, hr⟩ := idx2_ok h6
    refine ⟨q.1, q.2, r, hr, ?_⟩
    rw [step_ok h, step_ok h5, step_ok h4, step_ok h3, step_ok h2, step_ok h1]; rfl

/-- Set-up of the argmin solver of the given type. -/
def setup (lib : Lib) (ty : SolverType) (x0 : Vec) (cfg : SolverConfig) : Except LErr Setup :=
  match ty with
  | .lbfgs => setupLbfgs lib x0 cfg
  | .nelderMead => setupNelderMead lib x0 cfg
  | .steepestDescent => setupSteepest lib x0 cfg
  | .trustRegion => setupTrust lib x0 cfg
  | .newtonCG => setupNewton lib x0 cfg
  | .cobyla => .error .invalidCOBYLA

theorem solve_argmin (lib : Lib) (p : Prob) {ty : SolverType} (h : ty ≠ .cobyla) (cfg : SolverConfig)
    (x0 : Vec) (track : Bool) :
    solveWithTracking lib p ty cfg x0 track = execute lib p track (setup lib ty x0 cfg) := by
  cases ty <;> first | rfl | exact absurd rfl h

theorem setupLbfgs_ok {lib : Lib} {x0 : Vec} {m : Nat} {tg tc : F64} {hs : Nat} {l1 : Option F64}
    {ls : LineSearchMethod} {s : Setup} (h : setupLbfgs lib x0 (.lbfgs m tg tc hs l1 ls) = .ok s) :
    ∃ lo hi r, lsBounds ls = lo :: hi :: r ∧ s = ⟨lsCalls lo hi ls ++ [.lbfgs hs, .withToleranceCost tc,
      .withToleranceGrad tg] ++ (l1.map Call.withL1).toList, some x0, m⟩ := by
  obtain ⟨s1, h1, h⟩ := bind_ok h
  obtain ⟨s2, h2, h⟩ := bind_ok h
  obtain ⟨s3, h3, h⟩ := bind_ok h
  obtain ⟨s4, h4, h⟩ := bind_ok h
  cases h
  obtain ⟨lo, hi, r, hb, hs⟩ := lineSearch_ok h1
  refine ⟨lo, hi, r, hb, ?_⟩
  have h3 := step_ok h3
  have h2 := step_ok h2
  subst h3 h2 hs
  cases l1 with
  | none => cases h4; simp
  | some c => rw [step_ok h4]; simp

theorem setupNelderMead_ok {lib : Lib} {x0 : Vec} {m : Nat} {d sd al ga rh si : F64} {s : Setup}
    (h : setupNelderMead lib x0 (.nelderMead d sd m al ga rh si) = .ok s) :
    s = ⟨[.nelderMead (simplex x0 d), .withSdTolerance sd, .withAlpha al, .withGamma ga, .withRho rh,
      .withSigma si], none, m⟩ := by
  obtain ⟨s1, h1, h⟩ := bind_ok h
  obtain ⟨s2, h2, h⟩ := bind_ok h
  obtain ⟨s3, h3, h⟩ := bind_ok h
  obtain ⟨s4, h4, h⟩ := bind_ok h
  obtain ⟨s5, h5, h⟩ := bind_ok h
  cases h
  rw [step_ok h5, step_ok h4, step_ok h3, step_ok h2, step_ok h1]; rfl

theorem setupSteepest_ok {lib : Lib} {x0 : Vec} {m : Nat} {ls : LineSearchMethod} {s : Setup}
    (h : setupSteepest lib x0 (.steepestDescent m ls) = .ok s) :
    ∃ lo hi r, lsBounds ls = lo :: hi :: r ∧ s = ⟨lsCalls lo hi ls ++ [.steepestDescent], some x0, m⟩ := by
  obtain ⟨s1, h1, h⟩ := bind_ok h
  cases h
  obtain ⟨lo, hi, r, hb, hs⟩ := lineSearch_ok h1
  exact ⟨lo, hi, r, hb, by rw [hs]⟩

theorem setupTrust_ok {lib : Lib} {x0 : Vec} {m : Nat} {me : TrustRegionRadiusMethod} {ra mr et : F64}
    {s : Setup} (h : setupTrust lib x0 (.trustRegion me m ra mr et) = .ok s) :
    s = ⟨[.trustRegion me, .withRadius ra, .withMaxRadius mr, .withEta et], some x0, m⟩ := by
  obtain ⟨s1, h1, h⟩ := bind_ok h
  obtain ⟨s2, h2, h⟩ := bind_ok h
  obtain ⟨s3, h3, h⟩ := bind_ok h
  cases h
  rw [step_ok h3, step_ok h2, step_ok h1]; rfl

theorem setupNewtonMT_ok {lib : Lib} {x0 : Vec} {m : Nat} {cu tl c1 c2 w : F64} {b : Vec} {s : Setup}
    (h : setupNewton lib x0 (.newtonCG m cu tl (.moreThuente c1 c2 w b)) = .ok s) :
    ∃ lo hi r, b = lo :: hi :: r ∧ s = ⟨lsCalls lo hi (.moreThuente c1 c2 w b) ++ [.newtonCG,
      .withCurvatureThreshold cu, .withTolerance tl], some x0, m⟩ := by
  obtain ⟨s1, h1, h⟩ := bind_ok h
  obtain ⟨s2, h2, h⟩ := bind_ok h
  cases h
  obtain ⟨lo, hi, r, hb, hs⟩ := lineSearch_ok h1
  exact ⟨lo, hi, r, hb, by rw [step_ok h2, hs]; rfl⟩

theorem setupNewtonHZ_ok {lib : Lib} {x0 : Vec} {m : Nat} {cu tl d si ep th ga et : F64} {b : Vec}
    {s : Setup} (h : setupNewton lib x0 (.newtonCG m cu tl (.hagerZhang d si ep th ga et b)) = .ok s) :
    ∃ lo hi r, b = lo :: hi :: r ∧
      s = ⟨lsCalls lo hi (.hagerZhang d si ep th ga et b) ++ [.newtonCG], some x0, m⟩ := by
  obtain ⟨s1, h1, h⟩ := bind_ok h
  cases h
  obtain ⟨lo, hi, r, hb, hs⟩ := lineSearch_ok h1
  exact ⟨lo, hi, r, hb, by rw [hs]⟩

theorem setupCobyla_ok {p : Prob} {x0 : Vec} {m : Nat} {st fr fa xr : F64} {xa : Vec} {s : Cobyla}
    (h : setupCobyla p x0 (.cobyla m st fr fa xr xa) = .ok s) :
    ∃ bs, s = ⟨x0, bs, m, st, fr, fa, xr, xa⟩ := by
  unfold setupCobyla at h
  dsimp only at h
  split at h
  · cases h
  · obtain ⟨bs, _, h⟩ := bind_ok h
    cases h
    refine ⟨bs, ?_⟩
    cases xa <;> rfl

/-! ### Evaluations -/

/-- Number of objective evaluations. -/
def costs (q : List Query) : Nat := q.countP fun
  | .cost _ => true
  | _ => false

theorem costs_cost (x : Vec) (q : List Query) : costs (.cost x :: q) = costs q + 1 := by simp [costs]
theorem costs_gradient (x : Vec) (q : List Query) : costs (.gradient x :: q) = costs q := by simp [costs]
theorem costs_hessian (x : Vec) (q : List Query) : costs (.hessian x :: q) = costs q := by simp [costs]
theorem costs_constraint (i : Nat) (x : Vec) (q : List Query) :
    costs (.constraint i x :: q) = costs q := by simp [costs]

/-- The counter does not influence a run, and counts the objective evaluations. -/
theorem exec_counter (p : Prob) (t : Tree) (k : Option Nat) :
    (t.exec p k).1 = (t.exec p none).1 ∧ (t.exec p k).2.2 = (t.exec p none).2.2 ∧
      (t.exec p k).2.1 = k.map (· + costs (t.exec p none).2.2) := by
  induction t generalizing k with
  | done b c => cases b <;> cases k <;> exact ⟨rfl, rfl, rfl⟩
  | fail => cases k <;> exact ⟨rfl, rfl, rfl⟩
  | cost x f ih =>
    unfold Tree.exec
    cases hx : p.objective x with
    | error e => cases k <;> exact ⟨rfl, rfl, rfl⟩
    | ok v =>
      obtain ⟨h1, h2, h3⟩ := ih v (k.map (· + 1))
      dsimp only
      refine ⟨h1, by rw [Option.map_none, h2], ?_⟩
      simp only [Option.map_none, costs_cost]
      rw [h3]
      cases k with
      | none => rfl
      | some k => simp only [Option.map_some]; congr 1; omega
  | gradient x f ih =>
    unfold Tree.exec
    cases hx : p.gradient x with
    | error e => cases k <;> exact ⟨rfl, rfl, rfl⟩
    | ok v =>
      obtain ⟨h1, h2, h3⟩ := ih v k
      dsimp only
      refine ⟨h1, by rw [h2], ?_⟩
      simp only [costs_gradient]
      exact h3
  | hessian x f ih =>
    unfold Tree.exec
    cases hx : p.hessian x with
    | error e => cases k <;> exact ⟨rfl, rfl, rfl⟩
    | ok v =>
      obtain ⟨h1, h2, h3⟩ := ih v k
      dsimp only
      refine ⟨h1, by rw [h2], ?_⟩
      simp only [costs_hessian]
      exact h3

theorem cexec_counter (p : Prob) (t : CTree) (k : Option Nat) :
    (t.exec p k).1 = (t.exec p none).1 ∧ (t.exec p k).2.2 = (t.exec p none).2.2 ∧
      (t.exec p k).2.1 = k.map (· + costs (t.exec p none).2.2) := by
  induction t generalizing k with
  | done b c => cases k <;> exact ⟨rfl, rfl, rfl⟩
  | fail => cases k <;> exact ⟨rfl, rfl, rfl⟩
  | cost x f ih =>
    unfold CTree.exec
    dsimp only
    obtain ⟨h1, h2, h3⟩ := ih (cobylaCost p x) (k.map (· + 1))
    refine ⟨h1, by rw [Option.map_none, h2], ?_⟩
    simp only [Option.map_none, costs_cost]
    rw [h3]
    cases k with
    | none => rfl
    | some k => simp only [Option.map_some]; congr 1; omega
  | constraint i x f ih =>
    unfold CTree.exec
    cases hx : p.constraints[i]? with
    | none => cases k <;> exact ⟨rfl, rfl, rfl⟩
    | some g =>
      obtain ⟨h1, h2, h3⟩ := ih (g x) k
      dsimp only
      refine ⟨h1, by rw [h2], ?_⟩
      simp only [costs_constraint]
      exact h3

/-- An evaluation that fails. -/
def Fails (p : Prob) : Query → Prop
  | .cost x => ∃ e, p.objective x = .error e
  | .gradient x => ∃ e, p.gradient x = .error e
  | .hessian x => ∃ e, p.hessian x = .error e
  | .constraint _ _ => False

/-- A failing evaluation ends an argmin run with an error, and is its last evaluation. -/
theorem exec_fails (p : Prob) (t : Tree) (k : Option Nat) (q : Query) (h : q ∈ (t.exec p k).2.2)
    (hf : Fails p q) : (t.exec p k).1 = .error .runFailed ∧ (t.exec p k).2.2.getLast? = some q ∧
      ((t.exec p k).2.2.filter (· == q)).length = 1 := by
  induction t generalizing k with
  | done b c => cases b <;> cases h
  | fail => cases h
  | cost x f ih =>
    unfold Tree.exec at h ⊢
    cases hx : p.objective x with
    | error e =>
      rw [hx] at h
      obtain rfl := List.mem_singleton.mp h
      exact ⟨rfl, rfl, by simp⟩
    | ok v =>
      rw [hx] at h
      dsimp only at h ⊢
      rcases List.mem_cons.mp h with rfl | h
      · obtain ⟨e, he⟩ := hf
        rw [hx] at he; cases he
      · obtain ⟨h1, h2, h3⟩ := ih v _ h
        refine ⟨h1, ?_, ?_⟩
        · rw [List.getLast?_cons, h2]; rfl
        · rw [List.filter_cons_of_neg, h3]
          intro he
          have he : Query.cost x = q := by simpa using he
          subst he
          obtain ⟨e, he⟩ := hf
          rw [hx] at he; cases he
  | gradient x f ih =>
    unfold Tree.exec at h ⊢
    cases hx : p.gradient x with
    | error e =>
      rw [hx] at h
      obtain rfl := List.mem_singleton.mp h
      exact ⟨rfl, rfl, by simp⟩
    | ok v =>
      rw [hx] at h
      dsimp only at h ⊢
      rcases List.mem_cons.mp h with rfl | h
      · obtain ⟨e, he⟩ := hf
        rw [hx] at he; cases he
      · obtain ⟨h1, h2, h3⟩ := ih v _ h
        refine ⟨h1, ?_, ?_⟩
        · rw [List.getLast?_cons, h2]; rfl
        · rw [List.filter_cons_of_neg, h3]
          intro he
          have he : Query.gradient x = q := by simpa using he
          subst he
          obtain ⟨e, he⟩ := hf
          rw [hx] at he; cases he
  | hessian x f ih =>
    unfold Tree.exec at h ⊢
    cases hx : p.hessian x with
    | error e =>
      rw [hx] at h
      obtain rfl := List.mem_singleton.mp h
      exact ⟨rfl, rfl, by simp⟩
    | ok v =>
      rw [hx] at h
      dsimp only at h ⊢
      rcases List.mem_cons.mp h with rfl | h
      · obtain ⟨e, he⟩ := hf
        rw [hx] at he; cases he
      · obtain ⟨h1, h2, h3⟩ := ih v _ h
        refine ⟨h1, ?_, ?_⟩
        · rw [List.getLast?_cons, h2]; rfl
        · rw [List.filter_cons_of_neg, h3]
          intro he
          have he : Query.hessian x = q := by simpa using he
          subst he
          obtain ⟨e, he⟩ := hf
          rw [hx] at he; cases he

/-! ### Adding a step to a coordinate -/
open F64

theorem eq_of_key {x y : F64} (h : x.key = y.key) (h0 : x.mag ≠ 0) : x = y := by
  obtain ⟨a, m, hm⟩ := x
  obtain ⟨b, k, hk⟩ := y
  unfold F64.key at h
  dsimp only at h h0
  have : a = b ∧ m = k := by
    cases a <;> cases b <;> simp at h ⊢ <;> omega
  obtain ⟨rfl, rfl⟩ := this
  rfl

theorem negZero_add (d : F64) (h : d.isNaN = false) : F64.negZero.add d = d := by
  unfold F64.add
  rw [h]
  rw [show F64.negZero.isNaN = false by decide +kernel, show F64.negZero.isInf = false by decide +kernel]
  simp only [Bool.false_or, Bool.or_false, Bool.false_eq_true, if_false]
  cases hi : d.isInf with
  | true => simp
  | false =>
    simp only [Bool.false_eq_true, if_false]
    rw [show F64.negZero.toInt = 0 by decide +kernel, Int.zero_add]
    by_cases hz : d.toInt = 0
    · rw [if_pos hz]
      have hm := toInt_eq_zero_iff.mp hz
      obtain ⟨a, m, hm'⟩ := d
      dsimp only at hm
      subst hm
      cases a <;> rfl
    · rw [if_neg hz]
      refine (eq_of_key ?_ (fun hm => hz (toInt_eq_zero_iff.mpr hm))).symm
      rw [key_roundZ]
      have := rkey_toInt h 1 (by omega)
      simpa using this.symm

/-- Distance to the next larger magnitude, relative to the value. -/
theorem gap_le (m : Nat) : gap m = 1 ∨ gap m * 2 ^ 52 ≤ uval m := by
  unfold gap uval
  by_cases h : m < 2 ^ 53
  · left
    have : m / 2 ^ 52 - 1 = 0 := by
      have : m / 2 ^ 52 < 2 := Nat.div_lt_of_lt_mul (by omega)
      omega
    rw [this]; rfl
  · right
    rw [if_neg h, Nat.mul_comm]
    exact Nat.mul_le_mul_right _ (by omega)

/-- A step of at least one `2^52`-th of a finite coordinate changes its numeric value. -/
theorem add_changes {x d : F64} (hx : x.isFinite = true) (hd : d.isFinite = true) (h0 : d.mag ≠ 0)
    (h : x.toInt.natAbs ≤ 2 ^ 52 * d.toInt.natAbs) : (x.add d).key ≠ x.key := by
  rw [key_add hx hd]
  have hd0 : d.toInt ≠ 0 := fun hz => h0 (toInt_eq_zero_iff.mp hz)
  have hxm := isFinite_iff.mp hx
  have hinf : infMag < 2 ^ 63 := infMag_lt
  have hna : x.toInt.natAbs = uval x.mag := by
    unfold F64.toInt; cases x.neg <;> simp
  -- the neighbours of x
  have hgap : (gap x.mag : Nat) ≤ d.toInt.natAbs := by
    rcases gap_le x.mag with hg | hg
    · omega
    · rw [hna] at h
      have : gap x.mag * 2 ^ 52 ≤ d.toInt.natAbs * 2 ^ 52 := by
        rw [Nat.mul_comm d.toInt.natAbs]; exact hg.trans h
      exact Nat.le_of_mul_le_mul_right this (by decide)
  have hup : uval (x.mag + 1) = uval x.mag + gap x.mag := uval_succ _
  have hdown : ∀ k, x.mag = k + 1 → uval x.mag ≤ uval k + gap x.mag := by
    intro k hk
    rw [hk, uval_succ]
    refine Nat.add_le_add_left ?_ _
    unfold gap
    refine Nat.pow_le_pow_right (by decide) ?_
    have : k / 2 ^ 52 ≤ (k + 1) / 2 ^ 52 := Nat.div_le_div_right (by omega)
    omega
  -- a finite or infinite number one step above / below x
  have key : ∀ (z : Int), (x.toInt < z → x.toInt + gap x.mag ≤ z → x.key < rkey z 1) ∧
      (z < x.toInt → z + gap x.mag ≤ x.toInt → rkey z 1 < x.key) := by
    intro z
    obtain ⟨s, m, hm⟩ := x
    dsimp only at *
    cases s with
    | false =>
      have ht : (⟨false, m, hm⟩ : F64).toInt = uval m := rfl
      have hk : (⟨false, m, hm⟩ : F64).key = m := rfl
      rw [ht, hk]
      refine ⟨fun _ hz => ?_, fun _ hz => ?_⟩
      · have := le_rkey_of_le (z := z) (d := 1) (x := ⟨false, m + 1, by omega⟩) (by omega)
          (not_isNaN_iff.mpr (by dsimp only; omega)) (by
            show ((1 : Nat) : Int) * (uval (m + 1) : Int) ≤ z
            rw [hup]; push_cast; omega)
        have hk1 : (⟨false, m + 1, by omega⟩ : F64).key = ((m + 1 : Nat) : Int) := rfl
        rw [hk1] at this; omega
      · cases m with
        | zero =>
          have := rkey_le_of_le (z := z) (d := 1) (x := ⟨true, 1, by omega⟩) (by omega)
            (not_isNaN_iff.mpr (by show 1 ≤ infMag; decide)) (by
              show z ≤ ((1 : Nat) : Int) * -(uval 1 : Int)
              rw [uval_small (by decide)]
              rw [show uval 0 = 0 from rfl] at hz
              have := gap_pos 0
              push_cast; omega)
          have hk1 : (⟨true, 1, by omega⟩ : F64).key = -1 := rfl
          rw [hk1] at this
          push_cast; omega
        | succ k =>
          have := rkey_le_of_le (z := z) (d := 1) (x := ⟨false, k, by omega⟩) (by omega)
            (not_isNaN_iff.mpr (by dsimp only; omega)) (by
              show z ≤ ((1 : Nat) : Int) * (uval k : Int)
              have := hdown k rfl
              push_cast; omega)
          have hk1 : (⟨false, k, by omega⟩ : F64).key = (k : Int) := rfl
          rw [hk1] at this
          push_cast; omega
    | true =>
      have ht : (⟨true, m, hm⟩ : F64).toInt = -(uval m : Int) := rfl
      have hk : (⟨true, m, hm⟩ : F64).key = -(m : Int) := rfl
      rw [ht, hk]
      refine ⟨fun _ hz => ?_, fun _ hz => ?_⟩
      · cases m with
        | zero =>
          have := le_rkey_of_le (z := z) (d := 1) (x := ⟨false, 1, by omega⟩) (by omega)
            (not_isNaN_iff.mpr (by show 1 ≤ infMag; decide)) (by
              show ((1 : Nat) : Int) * (uval 1 : Int) ≤ z
              rw [uval_small (by decide)]
              rw [show uval 0 = 0 from rfl] at hz
              have := gap_pos 0
              push_cast at hz ⊢; omega)
          have hk1 : (⟨false, 1, by omega⟩ : F64).key = 1 := rfl
          rw [hk1] at this
          push_cast; omega
        | succ k =>
          have := le_rkey_of_le (z := z) (d := 1) (x := ⟨true, k, by omega⟩) (by omega)
            (not_isNaN_iff.mpr (by dsimp only; omega)) (by
              show ((1 : Nat) : Int) * -(uval k : Int) ≤ z
              have := hdown k rfl
              push_cast; omega)
          have hk1 : (⟨true, k, by omega⟩ : F64).key = -(k : Int) := rfl
          rw [hk1] at this
          push_cast; omega
      · have := rkey_le_of_le (z := z) (d := 1) (x := ⟨true, m + 1, by omega⟩) (by omega)
          (not_isNaN_iff.mpr (by dsimp only; omega)) (by
            show z ≤ ((1 : Nat) : Int) * -(uval (m + 1) : Int)
            rw [hup]; push_cast; omega)
        have hk1 : (⟨true, m + 1, by omega⟩ : F64).key = -((m + 1 : Nat) : Int) := rfl
        rw [hk1] at this; push_cast at this; omega
  rcases Int.lt_or_gt_of_ne hd0 with hneg | hpos
  · have := (key (x.toInt + d.toInt)).2 (by omega) (by omega)
    omega
  · have := (key (x.toInt + d.toInt)).1 (by omega) (by omega)
    omega

end GS.Runner
