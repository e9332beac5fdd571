/- Signed error bounds of rounded arithmetic, in real values. -/
import Verif.Props.Distance

namespace GS.F64
open GS.Props

/-- Half the smallest positive double, `2^-1075`.  Used in proofs only; no counterpart in /repo. -/
def eta : ℚ := 1 / 2 ^ 1075

theorem eta_pos : 0 < eta := by unfold eta; positivity

/-- Half the overflow threshold, `2^1023`.  Used in proofs only; no counterpart in /repo. -/
def top : ℚ := 2 ^ 1023

theorem one_le_top : 1 ≤ top := one_le_pow₀ (by norm_num)

theorem uval_inf : (uval infMag : ℚ) = 2 * top * scale := by
  have h : uval infMag = 2 * (2 ^ 1023 * scale : Nat) := by unfold scale uval; decide +kernel
  rw [h, Nat.cast_mul, Nat.cast_mul, Nat.cast_pow, mul_assoc]
  rfl

theorem eta_units : eta * scale = 1 / 2 := by
  unfold eta
  rw [scale_rat]
  rw [show (2 : ℚ) ^ 1075 = 2 * 2 ^ 1074 by rw [← pow_succ']]
  have : (2 : ℚ) ^ 1074 ≠ 0 := by positivity
  field_simp

theorem scale_q_pos : (0 : ℚ) < scale := by exact_mod_cast scale_pos

/-- Rounding the non-negative quotient `p / q` (in units). -/
theorem mkRound_approx (s : Bool) {p q : Nat} (hq : 0 < q) (h : (p : ℚ) / q ≤ top * scale) :
    (mkRound s (roundMag p q)).isFinite = true ∧
    |(mkRound s (roundMag p q)).sv - (if s then -((p : ℚ) / q) else (p : ℚ) / q)| ≤ uro * ((p : ℚ) / q) + 1 / 2 := by
  obtain ⟨h1, h2⟩ := round_q p q hq
  have hs := scale_q_pos
  have hs1 : (1 : ℚ) ≤ scale := by exact_mod_cast scale_pos
  have hlt : (uval (roundMag p q) : ℚ) < uval infMag := by
    rw [uval_inf]
    have e : (1 + uro) * ((p : ℚ) / q) ≤ (1 + uro) * (top * scale) :=
      mul_le_mul_of_nonneg_left h (by have := uro_pos; linarith)
    have hu : uro ≤ 1 / 4 := by unfold uro; norm_num
    have hb' : (1 : ℚ) ≤ top * scale := one_le_mul_of_one_le_of_one_le one_le_top hs1
    have : uro * (top * scale) ≤ 1 / 4 * (top * scale) := mul_le_mul_of_nonneg_right hu (by linarith)
    linarith
  have hm : roundMag p q < infMag := by
    have : uval (roundMag p q) < uval infMag := by exact_mod_cast hlt
    exact uval_lt_iff.1 this
  have hmag : (mkRound s (roundMag p q)).mag = roundMag p q := by
    rw [mkRound_mag]; exact Nat.min_eq_left hm.le
  refine ⟨isFinite_iff.2 (by rw [hmag]; exact hm), ?_⟩
  unfold sv toInt
  rw [hmag, mkRound_neg]
  cases s
  · simp only [Bool.false_eq_true, if_false]
    push_cast
    rw [abs_le]
    constructor <;> linarith
  · simp only [if_true]
    push_cast
    rw [abs_le]
    constructor <;> linarith

theorem sv_eq (x : F64) : x.sv = realVal x * scale := by
  have := scale_q_pos
  unfold realVal sv
  rw [← scale_rat]
  field_simp

/-- Sum of finite doubles. -/
theorem add_approx {x y : F64} (hx : x.isFinite = true) (hy : y.isFinite = true)
    (h : |realVal x + realVal y| ≤ top) :
    (add x y).isFinite = true ∧
    |realVal (add x y) - (realVal x + realVal y)| ≤ uro * |realVal x + realVal y| := by
  have hs := scale_q_pos
  unfold add
  simp only [fin_not_nan hx, fin_not_nan hy, fin_not_inf hx, fin_not_inf hy, Bool.or_self,
    Bool.false_eq_true, if_false]
  have hz : realVal x + realVal y = ((x.toInt + y.toInt : Int) : ℚ) / scale := by
    unfold realVal
    rw [← scale_rat]
    push_cast
    ring
  rw [hz] at h ⊢
  generalize x.toInt + y.toInt = z at *
  by_cases h0 : z = 0
  · subst h0
    simp only [if_true]
    have : ∀ w : F64, (w = negZero ∨ w = zero) → w.isFinite = true ∧ realVal w = 0 := by
      rintro w (rfl | rfl) <;> exact ⟨by decide, by unfold realVal toInt; norm_num [negZero, zero]⟩
    obtain ⟨a, b⟩ := this (if (x.neg && y.neg) = true then negZero else zero) (by split <;> simp)
    refine ⟨a, ?_⟩
    rw [b]
    simp
  · simp only [h0, if_false]
    unfold roundZ
    have habs : |(z : ℚ) / scale| = (z.natAbs : ℚ) / scale := by
      rw [abs_div, abs_of_pos hs, Nat.cast_natAbs]
      push_cast
      rfl
    rw [habs] at h ⊢
    have hle : ((z.natAbs : ℚ)) / (1 : ℕ) ≤ top * scale := by
      rw [div_le_iff₀ hs] at h
      simpa using h
    obtain ⟨hf, _⟩ := mkRound_approx (decide (z < 0)) (p := z.natAbs) (q := 1) Nat.one_pos hle
    refine ⟨hf, ?_⟩
    obtain ⟨r1, r2⟩ := round_int_q z.natAbs
    have hge := (av_mkRound_ge (decide (z < 0)) (roundMag z.natAbs 1)).resolve_left (by
      rw [fin_not_inf hf]; simp)
    generalize hw : mkRound (decide (z < 0)) (roundMag z.natAbs 1) = w at *
    have hneg : w.neg = decide (z < 0) := by rw [← hw, mkRound_neg]
    have key : |w.sv - (z : ℚ)| ≤ uro * (z.natAbs : ℚ) := by
      rw [← hge] at r1 r2
      rcases lt_or_ge z 0 with hlt | hnn
      · have e1 : w.sv = -w.av := by
          unfold sv av toInt
          rw [hneg]; simp [hlt]
        have e2 : (z : ℚ) = -(z.natAbs : ℚ) := by
          have : z = -(z.natAbs : Int) := by omega
          exact_mod_cast this
        rw [e1, e2, abs_le]
        constructor <;> linarith
      · have e1 : w.sv = w.av := sv_of_pos (by rw [hneg]; simp; omega)
        have e2 : (z : ℚ) = (z.natAbs : ℚ) := by
          have : z = (z.natAbs : Int) := by omega
          conv_lhs => rw [this]
          rfl
        rw [e1, e2, abs_le]
        constructor <;> linarith
    have e : realVal w - (z : ℚ) / scale = (w.sv - z) / scale := by
      rw [sv_eq]; field_simp
    rw [e, abs_div, abs_of_pos hs, ← mul_div_assoc]
    exact div_le_div_of_nonneg_right key hs.le

/-- Difference of finite doubles. -/
theorem sub_approx {x y : F64} (hx : x.isFinite = true) (hy : y.isFinite = true)
    (h : |realVal x - realVal y| ≤ top) :
    (sub x y).isFinite = true ∧
    |realVal (sub x y) - (realVal x - realVal y)| ≤ uro * |realVal x - realVal y| := by
  have e : realVal y.fneg = -realVal y := by
    have := sv_fneg y
    unfold sv at this
    unfold realVal
    rw [this]; ring
  have := add_approx hx (y := y.fneg) hy (by rw [e, ← sub_eq_add_neg]; exact h)
  rwa [e, ← sub_eq_add_neg] at this

theorem sign_val (s : Bool) (m : ℕ) : ((if s = true then -(m : Int) else m : Int) : ℚ) = (if s then -1 else 1) * m := by
  cases s <;> simp

/-- Product of finite doubles. -/
theorem mul_approx {x y : F64} (hx : x.isFinite = true) (hy : y.isFinite = true)
    (h : |realVal x * realVal y| ≤ top) :
    (mul x y).isFinite = true ∧
    |realVal (mul x y) - realVal x * realVal y| ≤ uro * |realVal x * realVal y| + eta := by
  have hs := scale_q_pos
  unfold mul
  simp only [fin_not_nan hx, fin_not_nan hy, fin_not_inf hx, fin_not_inf hy, Bool.or_self,
    Bool.false_eq_true, if_false]
  have hx' : realVal x = (if x.neg then -1 else 1) * ((uval x.mag : ℚ) / scale) := by
    unfold realVal toInt
    rw [← scale_rat, sign_val]; ring
  have hy' : realVal y = (if y.neg then -1 else 1) * ((uval y.mag : ℚ) / scale) := by
    unfold realVal toInt
    rw [← scale_rat, sign_val]; ring
  have hprod : realVal x * realVal y = (if x.neg != y.neg then -1 else 1) *
      (((uval x.mag * uval y.mag : ℕ) : ℚ) / scale / scale) := by
    rw [hx', hy']
    push_cast
    generalize (scale : ℚ) = c
    cases x.neg <;> cases y.neg <;> simp <;> ring
  rw [hprod] at h ⊢
  generalize hP : uval x.mag * uval y.mag = P at *
  have hPn : (0 : ℚ) ≤ (P : ℚ) / scale / scale :=
    div_nonneg (div_nonneg (Nat.cast_nonneg _) hs.le) hs.le
  have habs : |(if (x.neg != y.neg) = true then (-1 : ℚ) else 1) * ((P : ℚ) / scale / scale)| =
      (P : ℚ) / scale / scale := by
    rw [abs_mul, abs_of_nonneg hPn]
    split <;> simp
  rw [habs] at h ⊢
  obtain ⟨hf, he⟩ := mkRound_approx (x.neg != y.neg) (p := P) (q := scale) scale_pos
    (by rwa [div_le_iff₀ hs] at h)
  refine ⟨hf, ?_⟩
  generalize mkRound (x.neg != y.neg) (roundMag P scale) = w at *
  have e : realVal w - (if (x.neg != y.neg) = true then (-1 : ℚ) else 1) * ((P : ℚ) / scale / scale) =
      (w.sv - (if (x.neg != y.neg) = true then -((P : ℚ) / scale) else (P : ℚ) / scale)) / scale := by
    rw [sv_eq]
    split <;> field_simp
  have e2 : uro * ((P : ℚ) / scale / scale) + eta = (uro * ((P : ℚ) / scale) + 1 / 2) / scale := by
    rw [← eta_units]; field_simp
  rw [e, abs_div, abs_of_pos hs, e2]
  exact div_le_div_of_nonneg_right he hs.le

/-- Quotient of finite doubles. -/
theorem div_approx {x y : F64} (hx : x.isFinite = true) (hy : y.isFinite = true) (h0 : y.mag ≠ 0)
    (h : |realVal x / realVal y| ≤ top) :
    (div x y).isFinite = true ∧
    |realVal (div x y) - realVal x / realVal y| ≤ uro * |realVal x / realVal y| + eta := by
  have hs := scale_q_pos
  unfold div
  simp only [fin_not_nan hx, fin_not_nan hy, fin_not_inf hx, fin_not_inf hy, Bool.or_self,
    Bool.false_eq_true, if_false, h0]
  have hup : 0 < uval y.mag := by
    have := uval_lt_iff.2 (Nat.pos_of_ne_zero h0)
    omega
  have hu : (0 : ℚ) < uval y.mag := by exact_mod_cast hup
  have hx' : realVal x = (if x.neg then -1 else 1) * ((uval x.mag : ℚ) / scale) := by
    unfold realVal toInt
    rw [← scale_rat, sign_val]; ring
  have hy' : realVal y = (if y.neg then -1 else 1) * ((uval y.mag : ℚ) / scale) := by
    unfold realVal toInt
    rw [← scale_rat, sign_val]; ring
  have hprod : realVal x / realVal y = (if x.neg != y.neg then -1 else 1) *
      (((uval x.mag * scale : ℕ) : ℚ) / uval y.mag / scale) := by
    rw [hx', hy']
    push_cast
    generalize (scale : ℚ) = c at *
    cases x.neg <;> cases y.neg <;> simp <;> field_simp
  rw [hprod] at h ⊢
  generalize hP : uval x.mag * scale = P at *
  generalize uval y.mag = Q at *
  have hPn : (0 : ℚ) ≤ (P : ℚ) / Q / scale := div_nonneg (div_nonneg (Nat.cast_nonneg _) hu.le) hs.le
  have habs : |(if (x.neg != y.neg) = true then (-1 : ℚ) else 1) * ((P : ℚ) / Q / scale)| =
      (P : ℚ) / Q / scale := by
    rw [abs_mul, abs_of_nonneg hPn]
    split <;> simp
  rw [habs] at h ⊢
  obtain ⟨hf, he⟩ := mkRound_approx (x.neg != y.neg) (p := P) (q := Q) hup
    (by rwa [div_le_iff₀ hs] at h)
  refine ⟨hf, ?_⟩
  generalize mkRound (x.neg != y.neg) (roundMag P Q) = w at *
  have e : realVal w - (if (x.neg != y.neg) = true then (-1 : ℚ) else 1) * ((P : ℚ) / Q / scale) =
      (w.sv - (if (x.neg != y.neg) = true then -((P : ℚ) / Q) else (P : ℚ) / Q)) / scale := by
    rw [sv_eq]
    split <;> field_simp
  have e2 : uro * ((P : ℚ) / Q / scale) + eta = (uro * ((P : ℚ) / Q) + 1 / 2) / scale := by
    rw [← eta_units]; field_simp
  rw [e, abs_div, abs_of_pos hs, e2]
  exact div_le_div_of_nonneg_right he hs.le

/-- Comparison of finite doubles is comparison of their values. -/
theorem le_iff_val {x y : F64} (hx : x.isFinite = true) (hy : y.isFinite = true) :
    F64.le x y = true ↔ realVal x ≤ realVal y := by
  have hs := scale_q_pos
  rw [le_iff]
  have e : realVal x ≤ realVal y ↔ x.toInt ≤ y.toInt := by
    unfold realVal
    rw [← scale_rat, div_le_div_iff_of_pos_right hs]
    exact_mod_cast Iff.rfl
  rw [e]
  have := toInt_lt_iff (x := y) (y := x)
  have h1 := fin_not_nan hx
  have h2 := fin_not_nan hy
  constructor
  · rintro ⟨_, _, h⟩; omega
  · intro h; exact ⟨h1, h2, by omega⟩
end GS.F64
