/- C105: returned objective values are within tolerance of the first one in exact arithmetic, up to rounding. -/
import Verif.Props.Distance

namespace GS.Props
open GS GS.F64 GS.Witness
variable {n : Nat}

/-! ### Specification -/

/-- The exact tolerance for two objective values. -/
def exactTol (absTol relTol a b : F64) : ℚ :=
  max (realVal absTol) (realVal relTol * max |realVal a| |realVal b|)

/-- The values differ by at most the exact tolerance, up to rounding. -/
def CloseTo (absTol relTol a b : F64) : Prop :=
  |realVal a - realVal b| ≤ (1 + 1 / 2 ^ 51) * exactTol absTol relTol a b + 1 / 2 ^ 1074

/-! ### Proofs -/

theorem realVal_units (x : F64) : (scale : ℚ) * realVal x = x.sv := by
  have hs : (0 : ℚ) < scale := by exact_mod_cast scale_pos
  unfold realVal sv
  rw [← scale_rat]
  field_simp

theorem mul_le_err {x y : F64} (hx : x.isFinite = true) (hy : y.isFinite = true) :
    (mul x y).isNaN = false ∧ (mul x y).av ≤ (1 + uro) * (x.av * y.av / scale) + 1 / 2 := by
  unfold mul
  simp only [fin_not_nan hx, fin_not_nan hy, fin_not_inf hx, fin_not_inf hy, Bool.or_self,
    Bool.false_eq_true, if_false]
  have h1 := av_mkRound_le (x.neg != y.neg) (roundMag (uval x.mag * uval y.mag) scale)
  obtain ⟨h3, _⟩ := round_q (uval x.mag * uval y.mag) scale scale_pos
  push_cast at h3
  exact ⟨mkRound_not_nan _ _, h1.trans h3⟩

/-- A product with a factor of at most one in magnitude does not overflow. -/
theorem mul_not_inf {x y : F64} (hx : x.av ≤ scale) (hy : y.isFinite = true) :
    (mul x y).isInf = false := by
  have hxm : uval x.mag ≤ scale := by unfold av at hx; exact_mod_cast hx
  have hi : uval infMag > scale := by unfold scale uval; decide +kernel
  have hxf : x.mag < infMag := uval_lt_iff.1 (lt_of_le_of_lt hxm hi)
  have hx' : x.isFinite = true := isFinite_iff.2 hxf
  unfold mul
  simp only [fin_not_nan hx', fin_not_nan hy, fin_not_inf hx', fin_not_inf hy, Bool.or_self,
    Bool.false_eq_true, if_false]
  have h1 : roundMag (uval x.mag * uval y.mag) scale ≤ y.mag :=
    roundMag_le_of_le scale_pos (Nat.mul_le_mul_right _ hxm)
  have h2 := isFinite_iff.1 hy
  cases hc : (mkRound (x.neg != y.neg) (roundMag (uval x.mag * uval y.mag) scale)).isInf
  · rfl
  · rw [isInf_iff, mkRound_mag] at hc
    have : Nat.min (roundMag (uval x.mag * uval y.mag) scale) infMag ≤ roundMag _ _ := Nat.min_le_left _ _
    omega

/-- The larger of two numbers. -/
theorem max_cases' {x y : F64} (hx : x.isNaN = false) (hy : y.isNaN = false) :
    (F64.max x y = x ∧ F64.lt x y = false ∨ F64.max x y = y ∧ F64.lt x y = true) := by
  unfold F64.max
  simp only [hx, hy, Bool.false_eq_true, if_false]
  cases h : F64.lt x y
  · left; simp
  · right; simp

theorem av_abs (x : F64) : x.abs.av = x.av := rfl

theorem max_abs_av {a b : F64} (ha : a.isFinite = true) (hb : b.isFinite = true) :
    (a.abs.max b.abs).isFinite = true ∧ (a.abs.max b.abs).av = max a.av b.av := by
  have ha' : a.abs.isNaN = false := fin_not_nan (x := a.abs) ha
  have hb' : b.abs.isNaN = false := fin_not_nan (x := b.abs) hb
  rcases max_cases' ha' hb' with ⟨e, h⟩ | ⟨e, h⟩
  · rw [e]
    refine ⟨ha, ?_⟩
    have := av_le_of_key (x := b.abs) (y := a.abs) rfl rfl (le_iff.1 (le_of_not_lt ha' hb' h)).2.2
    rw [av_abs, av_abs] at this
    rw [av_abs, max_eq_left this]
  · rw [e]
    refine ⟨hb, ?_⟩
    have := av_le_of_key (x := a.abs) (y := b.abs) rfl rfl (le_iff.1 (le_of_lt' h)).2.2
    rw [av_abs, av_abs] at this
    rw [av_abs, max_eq_right this]

theorem mul_neg_eq {x y : F64} (hx : x.isNaN = false) (hy : y.isNaN = false)
    (h : (mul x y).isNaN = false) : (mul x y).neg = (x.neg != y.neg) := by
  unfold mul at *
  simp only [hx, hy, Bool.or_self, Bool.false_eq_true, if_false] at *
  split at h
  · split at h
    · exact absurd h (by decide)
    · rename_i h1 h2
      rw [if_pos h1, if_neg h2]; rfl
  · rename_i h1
    rw [if_neg h1]; rfl

/-- The computed test implies closeness in exact arithmetic. -/
theorem closeTo_of_withinTol {absTol relTol a b : F64} (ha : a.isFinite = true) (hb : b.isFinite = true)
    (hat : absTol.isFinite = true) (hap : absTol.neg = false) (hrp : relTol.neg = false)
    (hr : F64.le relTol F64.one = true) (h : withinTol absTol relTol a b) :
    CloseTo absTol relTol a b := by
  have hs : (0 : ℚ) < scale := by exact_mod_cast scale_pos
  have hone : F64.one.av = scale := by
    unfold av
    have : uval F64.one.mag = scale := by unfold scale; decide +kernel
    rw [this]
  have hr1 : relTol.av ≤ scale := by
    have := av_le_of_key hrp (y := F64.one) rfl (le_iff.1 hr).2.2
    rwa [hone] at this
  have hrf : relTol.isFinite = true := by
    have h1 : relTol.key ≤ F64.one.key := (le_iff.1 hr).2.2
    rw [isFinite_iff]
    unfold key at h1
    simp only [hrp, Bool.false_eq_true, if_false] at h1
    have h2 : F64.one.mag < infMag := by decide
    simp only [show F64.one.neg = false from rfl, Bool.false_eq_true, if_false] at h1
    omega
  obtain ⟨mf, mv⟩ := max_abs_av ha hb
  have mneg : (a.abs.max b.abs).neg = false := by
    rcases max_cases' (x := a.abs) (y := b.abs) (fin_not_nan (x := a.abs) ha) (fin_not_nan (x := b.abs) hb)
      with ⟨e, _⟩ | ⟨e, _⟩ <;> rw [e] <;> rfl
  obtain ⟨pn, pe⟩ := mul_le_err hrf mf
  have pneg : (relTol.mul (a.abs.max b.abs)).neg = false := by
    rw [mul_neg_eq (fin_not_nan hrf) (fin_not_nan mf) pn, hrp, mneg]; rfl
  have pinf := mul_not_inf hr1 mf
  rw [mv] at pe
  unfold withinTol at h
  obtain ⟨sn, _, sl⟩ := sub_fin_err ha hb
  have key : ∀ T : F64, T.neg = false → T.isInf = false →
      F64.le ((a.sub b).abs) T = true → (1 - uro) * |a.sv - b.sv| ≤ T.av := by
    intro T hT hTi hl
    obtain ⟨_, hTn, hk⟩ := le_iff.1 hl
    have h1 := av_le_of_key (x := (a.sub b).abs) rfl hT hk
    rw [av_abs] at h1
    refine le_trans (sl.resolve_left fun hi => ?_) h1
    have : (a.sub b).abs.key = infMag := by
      show ((a.sub b).mag : Int) = infMag
      exact_mod_cast isInf_iff.1 hi
    rw [this] at hk
    unfold key at hk
    simp only [hT, Bool.false_eq_true, if_false] at hk
    have h2 := not_isNaN_iff.1 hTn
    have h3 : T.mag ≠ infMag := fun hc => by rw [isInf_iff.2 hc] at hTi; cases hTi
    omega
  have hbound : (1 - uro) * |a.sv - b.sv| ≤
      (1 + uro) * max absTol.av (relTol.av * max a.av b.av / scale) + 1 / 2 := by
    have hu := uro_pos
    have h0 : 0 ≤ absTol.av := av_nonneg _
    rcases max_cases' (fin_not_nan hat) pn with ⟨e, _⟩ | ⟨e, _⟩
    · rw [e] at h
      have h1 := key absTol hap (fin_not_inf hat) h
      have h2 := le_max_left absTol.av (relTol.av * max a.av b.av / scale)
      have h3 := mul_nonneg hu.le (h0.trans h2)
      linarith
    · rw [e] at h
      have h1 := key _ pneg pinf h
      have h2 := le_max_right absTol.av (relTol.av * max a.av b.av / scale)
      have h3 := mul_le_mul_of_nonneg_left h2 (by linarith : 0 ≤ 1 + uro)
      linarith
  have e1 : |a.sv - b.sv| = scale * |realVal a - realVal b| := by
    rw [← realVal_units, ← realVal_units, ← mul_sub, abs_mul, abs_of_pos hs]
  have eav : ∀ x : F64, x.av = scale * |realVal x| := by
    intro x
    rw [← abs_sv, ← realVal_units, abs_mul, abs_of_pos hs]
  have epos : ∀ x : F64, x.neg = false → |realVal x| = realVal x := by
    intro x hx
    refine abs_of_nonneg ?_
    have := av_nonneg x
    rw [← sv_of_pos hx, ← realVal_units] at this
    exact le_of_mul_le_mul_left (by simpa using this) hs
  have e2 : max absTol.av (relTol.av * max a.av b.av / scale) =
      scale * exactTol absTol relTol a b := by
    unfold exactTol
    rw [eav absTol, eav relTol, eav a, eav b, epos _ hap, epos _ hrp,
      ← mul_max_of_nonneg |realVal a| |realVal b| hs.le]
    generalize max |realVal a| |realVal b| = t
    have : scale * realVal relTol * (scale * t) / scale = scale * (realVal relTol * t) := by field_simp
    rw [this, mul_max_of_nonneg _ _ hs.le]
  rw [e1, e2] at hbound
  have hT : 0 ≤ exactTol absTol relTol a b := by
    refine le_trans ?_ (le_max_left _ _)
    rw [← epos _ hap]; exact abs_nonneg _
  unfold CloseTo
  rw [← scale_rat]
  generalize |realVal a - realVal b| = d at *
  generalize exactTol absTol relTol a b = T at *
  have hfin : (scale : ℚ) * d ≤ scale * ((1 + 1 / 2 ^ 51) * T + 1 / scale) := by
    have e3 : (scale : ℚ) * ((1 + 1 / 2 ^ 51) * T + 1 / scale) = (1 + 1 / 2 ^ 51) * (scale * T) + 1 := by
      field_simp
    rw [e3]
    have hsT : 0 ≤ scale * T := mul_nonneg hs.le hT
    generalize (scale : ℚ) * T = t at *
    generalize (scale : ℚ) * d = x at *
    unfold uro at hbound
    linarith
  exact le_of_mul_le_mul_left hfin hs

/-! ### Theorems -/

/-- C105, fresh runs: each returned objective is within the tolerance of the first one. -/
theorem C105_returned {env : Env n} {o : Opt n} {hd : Sol n} {tl : List (Sol n)} (hnew : o.solset = none)
    (h : (run env o none).result = .ok (hd :: tl)) (hat : o.absTol.isFinite = true)
    (hap : o.absTol.neg = false) (hrp : o.relTol.neg = false) (hr : F64.le o.relTol F64.one = true)
    (hfin : hd.objective.isFinite = true) :
    ∀ s ∈ tl, s.objective.isFinite = true → CloseTo o.absTol o.relTol s.objective hd.objective :=
  fun s hs hsf => closeTo_of_withinTol hsf hfin hat hap hrp hr
    ((C05_run env o _ hnew h).1.near hd rfl s hs)

/-- C105, resumed runs: the same with the tolerances of the checkpoint, if it holds for the checkpoint's set. -/
theorem C105_returned_resumed {env : Env n} {o : Opt n} {c : Ckpt n} {cfg : CkptConfig} {hd : Sol n}
    {tl : List (Sol n)} (hcfg : o.ckpt = some cfg) (hauto : cfg.autoResume = true)
    (hgood : ∀ set0, c.solutionSet = some set0 → GoodSet c.absTol c.relTol c.params.distanceFactor set0)
    (h : (run env o (some (.ok c))).result = .ok (hd :: tl)) (hat : c.absTol.isFinite = true)
    (hap : c.absTol.neg = false) (hrp : c.relTol.neg = false) (hr : F64.le c.relTol F64.one = true)
    (hfin : hd.objective.isFinite = true) :
    ∀ s ∈ tl, s.objective.isFinite = true → CloseTo c.absTol c.relTol s.objective hd.objective :=
  fun s hs hsf => closeTo_of_withinTol hsf hfin hat hap hrp hr
    ((C05_resumed env o c cfg _ hcfg hauto hgood h).1.near hd rfl s hs)

/-- The specification on numbers: 100 and 104 are close with a relative tolerance of 1/16, not with 1/32. -/
example : CloseTo F64.zero (F64.lit 1 16) (F64.ofNat 100) (F64.ofNat 104) ∧
    ¬ CloseTo F64.zero (F64.lit 1 32) (F64.ofNat 100) (F64.ofNat 104) := by
  unfold CloseTo exactTol; decide +kernel

/-- A fresh run returns two solutions with finite objectives under tolerances in the range. -/
example : (exOpt.map fun o => (o.solset.isNone && o.absTol.isFinite && !o.absTol.neg && !o.relTol.neg &&
    F64.le o.relTol F64.one, (run (env stay) o none).result.toOption.map (·.map fun s => s.objective.isFinite))) =
    some (true, some [true, true]) := by decide +kernel

/-- Why the relative tolerance is limited to one: with 1.5 the difference of two objectives overflows together with
the tolerance. -/
theorem C105_large_violated : ∃ a b r : F64, a.isFinite = true ∧ b.isFinite = true ∧ r.isFinite = true ∧
    r.neg = false ∧ withinTol F64.zero r a b ∧ ¬ CloseTo F64.zero r a b :=
  ⟨F64.maxFinite, F64.maxFinite.fneg, F64.lit 3 2, by decide +kernel, by decide +kernel, by decide +kernel,
    by decide +kernel, by unfold withinTol; decide +kernel,
    by unfold CloseTo exactTol; decide +kernel⟩

end GS.Props
