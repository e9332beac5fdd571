/- Rounding error of the binary64 model: how far `+`, `-` and `*` are from the exact operations. -/
import Verif.F64.Round
import Mathlib.Algebra.Order.Ring.Pow
import Mathlib.Algebra.Order.Field.Basic
import Mathlib.Algebra.Order.Ring.Rat
import Mathlib.Tactic.FieldSimp
import Mathlib.Tactic.Positivity

namespace GS
namespace F64

theorem rne_err (p d : Nat) (hd : 0 < d) :
    2 * p ≤ 2 * (d * rne p d) + d ∧ 2 * (d * rne p d) ≤ 2 * p + d := by
  have h1 : d * (p / d) + p % d = p := Nat.div_add_mod p d
  have h2 : p % d < d := Nat.mod_lt _ hd
  unfold rne
  simp only
  have e : ∀ k, d * (p / d + k) = d * (p / d) + d * k := fun k => Nat.mul_add ..
  split
  · omega
  · split
    · rw [e]; omega
    · rcases Nat.mod_two_eq_zero_or_one (p / d) with h | h <;> rw [h, e] <;> omega

theorem uval_roundMag (p q : Nat) (hq : 0 < q) :
    uval (roundMag p q) = rne p (q * 2 ^ shift (p / q)) * 2 ^ shift (p / q) := by
  have htr := roundMag_trunc p q hq
  unfold roundMag
  simp only
  generalize hs : shift (p / q) = s at htr ⊢
  set d := q * 2 ^ s
  have hr : rne p d = p / d ∨ rne p d = p / d + 1 := by
    unfold rne
    simp only
    split
    · exact .inl rfl
    · split
      · exact .inr rfl
      · rcases Nat.mod_two_eq_zero_or_one (p / d) with h | h <;> rw [h]
        · exact .inl rfl
        · exact .inr rfl
  generalize p / d = t at hr htr
  rcases hr with h | h <;> rw [h]
  · exact uval_mk s t htr
  · rw [← Nat.add_assoc, uval_succ, uval_mk s t htr]
    have hg : gap (s * 2 ^ 52 + t) = 2 ^ s := by
      unfold gap
      congr 1
      rcases htr with ⟨h0, h1⟩ | ⟨h0, h1⟩ <;> omega
    rw [hg, Nat.add_mul, Nat.one_mul]

/-- The rounded value of `p / q` is within a relative `2^-53` plus half a unit. -/
theorem roundMag_err (p q : Nat) (hq : 0 < q) :
    2 ^ 53 * (q * uval (roundMag p q)) ≤ (2 ^ 53 + 1) * p + 2 ^ 52 * q ∧
    (2 ^ 53 - 1) * p ≤ 2 ^ 53 * (q * uval (roundMag p q)) + 2 ^ 52 * q := by
  rw [uval_roundMag p q hq]
  have htr := roundMag_trunc p q hq
  generalize hs : shift (p / q) = s at htr ⊢
  have hd : 0 < q * 2 ^ s := Nat.mul_pos hq (Nat.pow_pos (by decide))
  obtain ⟨h1, h2⟩ := rne_err p _ hd
  have e : q * (rne p (q * 2 ^ s) * 2 ^ s) = q * 2 ^ s * rne p (q * 2 ^ s) := by ring
  rw [e]
  generalize hr : q * 2 ^ s * rne p (q * 2 ^ s) = r at h1 h2 ⊢
  have hk : q * 2 ^ s = q ∨ 2 ^ 52 * (q * 2 ^ s) ≤ p := by
    rcases htr with ⟨h0, _⟩ | ⟨h0, _⟩
    · left; rw [h0]; omega
    · right
      calc 2 ^ 52 * (q * 2 ^ s) ≤ p / (q * 2 ^ s) * (q * 2 ^ s) := Nat.mul_le_mul_right _ h0
        _ ≤ p := Nat.div_mul_le_self _ _
  generalize q * 2 ^ s = d at *
  omega

/-- Integers round with relative error `2^-53`. -/
theorem roundMag_err_int (p : Nat) :
    2 ^ 53 * uval (roundMag p 1) ≤ (2 ^ 53 + 1) * p ∧
    (2 ^ 53 - 1) * p ≤ 2 ^ 53 * uval (roundMag p 1) := by
  rw [uval_roundMag p 1 (by decide)]
  have htr := roundMag_trunc p 1 (by decide)
  generalize hs : shift (p / 1) = s at htr ⊢
  have hd : 0 < 1 * 2 ^ s := Nat.mul_pos (by decide) (Nat.pow_pos (by decide))
  obtain ⟨h1, h2⟩ := rne_err p _ hd
  have e : rne p (1 * 2 ^ s) * 2 ^ s = 1 * 2 ^ s * rne p (1 * 2 ^ s) := by ring
  rw [e]
  rcases htr with ⟨h0, _⟩ | ⟨h0, _⟩
  · subst h0
    have : rne p (1 * 2 ^ 0) = p := by
      unfold rne; simp only [Nat.pow_zero, Nat.mul_one, Nat.div_one, Nat.mod_one]; rfl
    rw [this]; omega
  · have hk : 2 ^ 52 * (1 * 2 ^ s) ≤ p :=
      calc 2 ^ 52 * (1 * 2 ^ s) ≤ p / (1 * 2 ^ s) * (1 * 2 ^ s) := Nat.mul_le_mul_right _ h0
        _ ≤ p := Nat.div_mul_le_self _ _
    generalize 1 * 2 ^ s * rne p (1 * 2 ^ s) = r at *
    generalize 1 * 2 ^ s = d at *
    omega

/-- Magnitude of a double in units, as a rational; infinity counts as `2^1024`. Used in proofs only; no
counterpart in /repo. -/
def av (x : F64) : ℚ := (uval x.mag : ℚ)

/-- Unit roundoff `2^-53`. Used in proofs only; no counterpart in /repo. -/
def uro : ℚ := 1 / 2 ^ 53

theorem uro_pos : 0 < uro := by unfold uro; positivity
theorem uro_le : uro ≤ 1 / 2 ^ 53 := le_refl _
theorem one_sub_uro_nonneg : 0 ≤ 1 - uro := by unfold uro; norm_num

theorem av_nonneg (x : F64) : 0 ≤ x.av := by unfold av; exact Nat.cast_nonneg _

theorem av_mkRound_le (s : Bool) (k : Nat) : (mkRound s k).av ≤ (uval k : ℚ) := by
  unfold av
  rw [mkRound_mag]
  exact_mod_cast uval_le_iff.2 (Nat.min_le_left _ _)

theorem av_mkRound_ge (s : Bool) (k : Nat) :
    (mkRound s k).isInf = true ∨ (mkRound s k).av = (uval k : ℚ) := by
  rcases Nat.lt_or_ge k infMag with h | h
  · right
    unfold av
    rw [mkRound_mag, show Nat.min k infMag = k from Nat.min_eq_left h.le]
  · left
    rw [isInf_iff, mkRound_mag]
    exact Nat.min_eq_right h

theorem round_int_q (p : Nat) :
    (uval (roundMag p 1) : ℚ) ≤ (1 + uro) * p ∧ (1 - uro) * p ≤ (uval (roundMag p 1) : ℚ) := by
  obtain ⟨h1, h2⟩ := roundMag_err_int p
  have h1' : (2 ^ 53 : ℚ) * uval (roundMag p 1) ≤ (2 ^ 53 + 1) * p := by exact_mod_cast h1
  have h2' : ((2 ^ 53 - 1 : Nat) : ℚ) * p ≤ 2 ^ 53 * uval (roundMag p 1) := by exact_mod_cast h2
  norm_num at h2' h1'
  unfold uro
  constructor <;> linarith

theorem round_q (p q : Nat) (hq : 0 < q) :
    (uval (roundMag p q) : ℚ) ≤ (1 + uro) * (p / q) + 1 / 2 ∧
    (1 - uro) * (p / q) ≤ (uval (roundMag p q) : ℚ) + 1 / 2 := by
  obtain ⟨h1, h2⟩ := roundMag_err p q hq
  have hq' : (0 : ℚ) < q := by exact_mod_cast hq
  have h1' : (2 ^ 53 : ℚ) * (q * uval (roundMag p q)) ≤ (2 ^ 53 + 1) * p + 2 ^ 52 * q := by
    exact_mod_cast h1
  have h2' : ((2 ^ 53 - 1 : Nat) : ℚ) * p ≤ 2 ^ 53 * (q * uval (roundMag p q)) + 2 ^ 52 * q := by
    exact_mod_cast h2
  norm_num at h2' h1'
  have e : (p : ℚ) = (p / q) * q := by field_simp
  generalize (uval (roundMag p q) : ℚ) = r at *
  generalize (p : ℚ) / q = x at *
  rw [e] at h1' h2'
  unfold uro
  constructor
  · have : (9007199254740992 * r) * q ≤ (9007199254740993 * x + 4503599627370496) * q := by linarith
    have := le_of_mul_le_mul_right this hq'
    linarith
  · have : (9007199254740991 * x) * q ≤ (9007199254740992 * r + 4503599627370496) * q := by linarith
    have := le_of_mul_le_mul_right this hq'
    linarith

/-- Signed value of a double in units, as a rational. Used in proofs only; no counterpart in /repo. -/
def sv (x : F64) : ℚ := (x.toInt : ℚ)

theorem abs_sv (x : F64) : |x.sv| = x.av := by
  unfold sv av toInt
  split
  · push_cast; rw [_root_.abs_neg, abs_of_nonneg (Nat.cast_nonneg _)]
  · push_cast; rw [abs_of_nonneg (Nat.cast_nonneg _)]

theorem sv_fneg (x : F64) : x.fneg.sv = -x.sv := by
  unfold sv toInt fneg
  cases x.neg <;> simp

theorem fin_fneg (x : F64) : x.fneg.isFinite = x.isFinite := rfl

/-- Sum of two finite doubles. -/
theorem add_fin_err {x y : F64} (hx : x.isFinite = true) (hy : y.isFinite = true) :
    (add x y).isNaN = false ∧ (add x y).av ≤ (1 + uro) * |x.sv + y.sv| ∧
    ((add x y).isInf = true ∨ (1 - uro) * |x.sv + y.sv| ≤ (add x y).av) := by
  have hz : |x.sv + y.sv| = ((x.toInt + y.toInt).natAbs : ℚ) := by
    rw [Nat.cast_natAbs]; unfold sv; push_cast; rfl
  rw [hz]
  unfold add
  simp only [fin_not_nan hx, fin_not_nan hy, fin_not_inf hx, fin_not_inf hy, Bool.or_self,
    Bool.false_eq_true, if_false]
  generalize x.toInt + y.toInt = z
  by_cases h : z = 0
  · subst h
    simp only [if_true]
    have : ∀ w : F64, (w = negZero ∨ w = zero) → w.isNaN = false ∧ w.av = 0 := by
      rintro w (rfl | rfl) <;> exact ⟨by decide, by unfold av; norm_num [negZero, zero]⟩
    obtain ⟨a, b⟩ := this (if (x.neg && y.neg) = true then negZero else zero) (by split <;> simp)
    refine ⟨a, ?_, .inr ?_⟩ <;> rw [b] <;> simp
  · simp only [h, if_false]
    unfold roundZ
    have h1 := av_mkRound_le (decide (z < 0)) (roundMag z.natAbs 1)
    have h2 := av_mkRound_ge (decide (z < 0)) (roundMag z.natAbs 1)
    obtain ⟨h3, h4⟩ := round_int_q z.natAbs
    refine ⟨mkRound_not_nan _ _, h1.trans h3, h2.imp id fun h => ?_⟩
    rw [h]; exact h4

/-- Difference of two finite doubles. -/
theorem sub_fin_err {x y : F64} (hx : x.isFinite = true) (hy : y.isFinite = true) :
    (sub x y).isNaN = false ∧ (sub x y).av ≤ (1 + uro) * |x.sv - y.sv| ∧
    ((sub x y).isInf = true ∨ (1 - uro) * |x.sv - y.sv| ≤ (sub x y).av) := by
  have := add_fin_err hx (y := y.fneg) hy
  rwa [sv_fneg, ← sub_eq_add_neg] at this

/-- Square of a double. -/
theorem sq_err {d : F64} (hd : d.isNaN = false) :
    (mul d d).isNaN = false ∧ (mul d d).neg = false ∧
    (d.isInf = false → (mul d d).av ≤ (1 + uro) * (d.av ^ 2 / scale) + 1 / 2) ∧
    (d.isInf = true → (mul d d).isInf = true) ∧
    ((mul d d).isInf = true ∨ (1 - uro) * (d.av ^ 2 / scale) ≤ (mul d d).av + 1 / 2) := by
  unfold mul
  simp only [hd, Bool.or_self, Bool.false_eq_true, if_false, bne_self_eq_false]
  cases hi : d.isInf
  · simp only [Bool.false_eq_true, if_false]
    have h1 := av_mkRound_le false (roundMag (uval d.mag * uval d.mag) scale)
    have h2 := av_mkRound_ge false (roundMag (uval d.mag * uval d.mag) scale)
    obtain ⟨h3, h4⟩ := round_q (uval d.mag * uval d.mag) scale scale_pos
    have e : (((uval d.mag * uval d.mag : Nat) : ℚ)) = d.av ^ 2 := by unfold av; push_cast; ring
    rw [e] at h3 h4
    refine ⟨mkRound_not_nan _ _, rfl, fun _ => h1.trans h3, by simp, h2.imp id fun h => ?_⟩
    rw [h]; exact h4
  · have hm : d.mag = infMag := isInf_iff.1 hi
    have hm0 : d.mag ≠ 0 := by rw [hm]; decide
    simp only [hm0, decide_false, Bool.or_self, Bool.false_eq_true, if_false, if_true]
    have : (mkRound false infMag).isInf = true := by decide
    exact ⟨mkRound_not_nan _ _, rfl, by simp, fun _ => this, .inl this⟩

theorem av_inf {x : F64} (h : x.isInf = true) : x.av = (uval infMag : ℚ) := by
  unfold av; rw [isInf_iff.1 h]

/-- `x` is a non-negative double approximating a sum between `lo` and `hi` (in units) with `m` roundings.
Used in proofs only; no counterpart in /repo. -/
structure Within (m : Nat) (x : F64) (lo hi : ℚ) : Prop where
  num : x.isNaN = false
  pos : x.neg = false
  upper : x.av ≤ (1 + uro) ^ m * hi
  lower : x.isInf = true ∨ (1 - uro) ^ m * lo ≤ x.av

theorem one_le_pow_uro (m : Nat) : 1 ≤ (1 + uro) ^ m :=
  one_le_pow₀ (by have := uro_pos; linarith)

theorem pow_uro_nonneg (m : Nat) : 0 ≤ (1 - uro) ^ m := pow_nonneg one_sub_uro_nonneg m

theorem Within.hi_nonneg {m : Nat} {x : F64} {lo hi : ℚ} (h : Within m x lo hi) : 0 ≤ hi := by
  have h1 := h.upper
  have h2 := av_nonneg x
  have h3 := one_le_pow_uro m
  by_contra hc
  push Not at hc
  have : (1 + uro) ^ m * hi < 0 := mul_neg_of_pos_of_neg (by linarith) hc
  linarith

theorem Within.succ {m : Nat} {x : F64} {lo hi : ℚ} (h : Within m x lo hi) : Within (m + 1) x lo hi := by
  refine ⟨h.num, h.pos, ?_, h.lower.imp id fun hl => ?_⟩
  · have h1 := h.hi_nonneg
    have h2 := h.upper
    have h3 : (1 + uro) ^ m * hi ≤ (1 + uro) ^ (m + 1) * hi := by
      apply mul_le_mul_of_nonneg_right _ h1
      exact pow_le_pow_right₀ (by have := uro_pos; linarith) (Nat.le_succ m)
    linarith
  · rcases le_or_gt 0 lo with h0 | h0
    · have : (1 - uro) ^ (m + 1) * lo ≤ (1 - uro) ^ m * lo := by
        apply mul_le_mul_of_nonneg_right _ h0
        exact pow_le_pow_of_le_one one_sub_uro_nonneg (by have := uro_pos; linarith) (Nat.le_succ m)
      linarith
    · have : (1 - uro) ^ (m + 1) * lo ≤ 0 := mul_nonpos_of_nonneg_of_nonpos (pow_uro_nonneg _) h0.le
      have := av_nonneg x
      linarith

theorem Within.mono {m k : Nat} {x : F64} {lo hi : ℚ} (h : Within m x lo hi) (hk : m ≤ k) :
    Within k x lo hi := by
  induction hk with
  | refl => exact h
  | step _ ih => exact ih.succ

theorem within_zero (m : Nat) : Within m zero 0 0 :=
  ⟨by decide, rfl, by unfold av; norm_num [zero], .inr (by unfold av; norm_num [zero])⟩

theorem sv_of_pos {x : F64} (h : x.neg = false) : x.sv = x.av := by
  unfold sv av toInt; simp [h]

theorem add_neg_false {x y : F64} (hx : x.neg = false) (hy : y.neg = false) (hxn : x.isNaN = false)
    (hyn : y.isNaN = false) : (add x y).neg = false := by
  unfold add
  simp only [hxn, hyn, Bool.or_self, Bool.false_eq_true, if_false, hx, hy, bne_self_eq_false,
    Bool.and_false]
  split
  · exact hx
  · split
    · exact hy
    · split
      · rfl
      · unfold roundZ
        rw [mkRound_neg]
        have : 0 ≤ x.toInt + y.toInt := by
          unfold toInt; simp only [hx, hy, Bool.false_eq_true, if_false]; omega
        exact decide_eq_false (by omega)

theorem Within.add {m : Nat} {x y : F64} {lo hi lo' hi' : ℚ} (h : Within m x lo hi)
    (h' : Within m y lo' hi') : Within (m + 1) (F64.add x y) (lo + lo') (hi + hi') := by
  have hneg := add_neg_false h.pos h'.pos h.num h'.num
  have hb : 0 ≤ (1 + uro) ^ m * hi ∧ 0 ≤ (1 + uro) ^ m * hi' :=
    ⟨(av_nonneg x).trans h.upper, (av_nonneg y).trans h'.upper⟩
  have hu := uro_pos
  have key : (1 + uro) ^ (m + 1) * (hi + hi') =
      (1 + uro) * ((1 + uro) ^ m * hi + (1 + uro) ^ m * hi') := by ring
  have big : ∀ t : ℚ, 0 ≤ t → t ≤ (1 + uro) * t := by
    intro t ht
    have := mul_nonneg hu.le ht
    linarith
  rcases class_cases x with ⟨hc, _⟩ | ⟨_, hc, _⟩ | ⟨_, hc, hf⟩
  · rw [h.num] at hc; cases hc
  · have e : F64.add x y = x := by
      unfold F64.add
      simp [h.num, h'.num, hc, h.pos, h'.pos]
    rw [e]
    refine ⟨h.num, h.pos, ?_, .inl hc⟩
    rw [key]
    have := big ((1 + uro) ^ m * hi + (1 + uro) ^ m * hi') (by linarith)
    have := h.upper
    linarith
  · rcases class_cases y with ⟨hc', _⟩ | ⟨_, hc', _⟩ | ⟨_, hc', hf'⟩
    · rw [h'.num] at hc'; cases hc'
    · have e : F64.add x y = y := by
        unfold F64.add
        simp [h.num, h'.num, hc, hc']
      rw [e]
      refine ⟨h'.num, h'.pos, ?_, .inl hc'⟩
      rw [key]
      have := big ((1 + uro) ^ m * hi + (1 + uro) ^ m * hi') (by linarith)
      have := h'.upper
      linarith
    · obtain ⟨a, b, c⟩ := add_fin_err hf hf'
      rw [sv_of_pos h.pos, sv_of_pos h'.pos,
        abs_of_nonneg (add_nonneg (av_nonneg x) (av_nonneg y))] at b c
      refine ⟨a, hneg, ?_, c.imp id fun c => ?_⟩
      · rw [key]
        refine b.trans (mul_le_mul_of_nonneg_left ?_ (by linarith))
        exact add_le_add h.upper h'.upper
      · have hl := h.lower.resolve_left (by simp [hc])
        have hl' := h'.lower.resolve_left (by simp [hc'])
        calc (1 - uro) ^ (m + 1) * (lo + lo')
            = (1 - uro) * ((1 - uro) ^ m * lo + (1 - uro) ^ m * lo') := by ring
          _ ≤ (1 - uro) * (x.av + y.av) :=
            mul_le_mul_of_nonneg_left (add_le_add hl hl') one_sub_uro_nonneg
          _ ≤ _ := c

/-- Square of the difference of two finite doubles. -/
theorem within_sq {x y : F64} (hx : x.isFinite = true) (hy : y.isFinite = true) :
    Within 3 ((x.sub y).mul (x.sub y)) ((x.sv - y.sv) ^ 2 / scale - 1)
      ((x.sv - y.sv) ^ 2 / scale + 1 / 2) := by
  obtain ⟨hn, hu, hl⟩ := sub_fin_err hx hy
  obtain ⟨sn, sp, su, si, sl⟩ := sq_err hn
  have hs : (0 : ℚ) < scale := by exact_mod_cast scale_pos
  have hsq : |x.sv - y.sv| ^ 2 = (x.sv - y.sv) ^ 2 := sq_abs _
  generalize |x.sv - y.sv| = t at *
  rw [← hsq]
  have hu' : (x.sub y).av ^ 2 ≤ (1 + uro) ^ 2 * t ^ 2 := by
    rw [← mul_pow]
    exact pow_le_pow_left₀ (av_nonneg _) hu 2
  have hup := uro_pos
  refine ⟨sn, sp, ?_, ?_⟩
  · cases hi : (x.sub y).isInf
    · refine (su hi).trans ?_
      have h1 : (x.sub y).av ^ 2 / scale ≤ (1 + uro) ^ 2 * (t ^ 2 / scale) := by
        rw [← mul_div_assoc]
        exact div_le_div_of_nonneg_right hu' hs.le
      have h2 := mul_le_mul_of_nonneg_left h1 (by linarith : 0 ≤ 1 + uro)
      have h3 := one_le_pow_uro 3
      have e : (1 + uro) ^ 3 * (t ^ 2 / scale + 1 / 2) =
        (1 + uro) * ((1 + uro) ^ 2 * (t ^ 2 / scale)) + (1 + uro) ^ 3 * (1 / 2) := by ring
      rw [e]
      linarith
    · have hav := av_inf (si hi)
      have hdv := av_inf hi
      rw [hdv] at hu'
      rw [hav]
      have hbig : (scale : ℚ) ≤ uval infMag := by
        have : scale ≤ uval infMag := by
          unfold scale uval
          decide +kernel
        exact_mod_cast this
      have h1 : (uval infMag : ℚ) ≤ (1 + uro) ^ 2 * (t ^ 2 / scale) := by
        rw [← mul_div_assoc, le_div_iff₀ hs]
        refine le_trans ?_ hu'
        rw [sq]
        exact mul_le_mul_of_nonneg_left hbig (Nat.cast_nonneg _)
      have h2 : 0 ≤ (1 + uro) ^ 2 * (t ^ 2 / scale) := by positivity
      have h3 := mul_nonneg hup.le h2
      have h4 : 0 ≤ (1 + uro) ^ 3 := by positivity
      have e : (1 + uro) ^ 3 * (t ^ 2 / scale + 1 / 2) =
        (1 + uro) * ((1 + uro) ^ 2 * (t ^ 2 / scale)) + (1 + uro) ^ 3 * (1 / 2) := by ring
      rw [e]
      linarith
  · rcases sl with h | h
    · exact .inl h
    rcases hl with h' | hl
    · exact .inl (si h')
    right
    have ht : 0 ≤ t := by
      by_contra hc
      push Not at hc
      have := av_nonneg (x.sub y)
      have : (1 + uro) * t < 0 := mul_neg_of_pos_of_neg (by linarith) hc
      linarith
    have h1 : (1 - uro) ^ 2 * t ^ 2 ≤ (x.sub y).av ^ 2 := by
      rw [← mul_pow]
      exact pow_le_pow_left₀ (mul_nonneg one_sub_uro_nonneg ht) hl 2
    have h2 : (1 - uro) ^ 2 * (t ^ 2 / scale) ≤ (x.sub y).av ^ 2 / scale := by
      rw [← mul_div_assoc]
      exact div_le_div_of_nonneg_right h1 hs.le
    have h3 := mul_le_mul_of_nonneg_left h2 one_sub_uro_nonneg
    have h4 : (1 : ℚ) / 2 ≤ (1 - uro) ^ 3 := by unfold uro; norm_num
    have e : (1 - uro) ^ 3 * (t ^ 2 / scale - 1) =
      (1 - uro) * ((1 - uro) ^ 2 * (t ^ 2 / scale)) - (1 - uro) ^ 3 := by ring
    rw [e]
    linarith

end F64
end GS
