/- Seconds as doubles: monotone and within rounding of the exact number of seconds. -/
import Verif.F64.Error
import Verif.F64.Sqrt
import Verif.Model.Elapsed
import Mathlib.Tactic.Positivity
import Mathlib.Tactic.FieldSimp

namespace GS
open F64

theorem ofNat_exact {k : Nat} (h : k < 2 ^ 52) : (F64.ofNat k).isFinite = true ∧
    (F64.ofNat k).neg = false ∧ uval (F64.ofNat k).mag = k * scale := by
  rcases Nat.eq_zero_or_pos k with rfl | h0
  · unfold ofNat lit
    rw [Nat.zero_mul, roundMag_zero 1 (by decide)]
    exact ⟨by decide, rfl, by decide⟩
  · obtain ⟨M, hM, hMi, _⟩ := exists_mag k h0 (by omega)
    have hmag : (F64.ofNat k).mag = M ∧ (F64.ofNat k).neg = false := by
      unfold ofNat lit
      rw [← hM]
      have := roundMag_uval M 1 (by decide)
      rw [Nat.one_mul] at this
      rw [this]
      exact ⟨by rw [mkRound_mag]; exact Nat.min_eq_left hMi.le, mkRound_neg _ _⟩
    exact ⟨isFinite_iff.2 (by rw [hmag.1]; exact hMi), hmag.2, by rw [hmag.1]; exact hM⟩

theorem ofNat_toInt {k : Nat} (h : k < 2 ^ 52) : (F64.ofNat k).toInt = (k * scale : Nat) := by
  obtain ⟨_, h2, h3⟩ := ofNat_exact h
  unfold toInt
  rw [h2, h3]; rfl

theorem ofNat_key_pos {k : Nat} (h0 : 0 < k) (h : k < 2 ^ 52) : 0 < (F64.ofNat k).key := by
  have h1 := ofNat_toInt h
  have h2 : F64.zero.toInt < (F64.ofNat k).toInt := by
    rw [h1, show F64.zero.toInt = 0 by decide]
    exact_mod_cast Nat.mul_pos h0 scale_pos
  have := toInt_lt_iff.1 h2
  rwa [show F64.zero.key = 0 by decide] at this

/-- The fraction of a second. Used in proofs only; src/oqnlp.rs 965, 1564. -/
def fracSec (r : Nat) : F64 := F64.div (F64.ofNat r) (F64.ofNat (10 ^ 9))

theorem fracSec_key {r : Nat} (h : r ≤ 10 ^ 9) : (fracSec r).isNaN = false ∧
    (fracSec r).key = rkey ((r * scale : Nat) * scale) (10 ^ 9 * scale) := by
  have hr : r < 2 ^ 52 := by omega
  have h9 : 10 ^ 9 < 2 ^ 52 := by decide
  obtain ⟨a, b⟩ := key_div_pos (ofNat_exact hr).1 (ofNat_exact h9).1 (ofNat_key_pos (by decide) h9)
  rw [ofNat_toInt hr, (ofNat_exact h9).2.2] at b
  exact ⟨a, b⟩

theorem fracSec_mono {a b : Nat} (h : a ≤ b) (hb : b ≤ 10 ^ 9) : (fracSec a).key ≤ (fracSec b).key := by
  rw [(fracSec_key (h.trans hb)).2, (fracSec_key hb).2]
  have hp : 0 < 10 ^ 9 * scale := Nat.mul_pos (by decide) scale_pos
  apply rkey_mono hp hp
  have : a * scale * scale * (10 ^ 9 * scale) ≤ b * scale * scale * (10 ^ 9 * scale) := by gcongr
  exact_mod_cast this

theorem fracSec_one : fracSec (10 ^ 9) = F64.one := by decide +kernel
theorem fracSec_zero : fracSec 0 = F64.zero := by decide +kernel

theorem fracSec_range {r : Nat} (h : r ≤ 10 ^ 9) : (fracSec r).isFinite = true ∧
    0 ≤ (fracSec r).toInt ∧ (fracSec r).toInt ≤ scale := by
  have h1 := fracSec_mono h (le_refl _)
  have h0 := fracSec_mono (Nat.zero_le r) h
  rw [fracSec_one] at h1
  rw [fracSec_zero] at h0
  have e1 : F64.one.toInt = (scale : Int) := by
    have := ofNat_toInt (k := 1) (by decide)
    rw [Nat.one_mul, show F64.ofNat 1 = F64.one by decide +kernel] at this
    exact this
  refine ⟨?_, ?_, ?_⟩
  · rw [isFinite_iff]
    have hk : F64.one.key < infMag := by decide +kernel
    have hz : F64.zero.key = 0 := by decide
    unfold key at h0 h1
    rw [show (F64.zero : F64).neg = false from rfl] at h0
    unfold key at hk
    rw [show (F64.zero : F64).mag = 0 from rfl] at h0
    have h2 := lt_of_le_of_lt h1 hk
    simp only [Bool.false_eq_true, if_false] at h0
    by_cases hn : (fracSec r).neg = true
    · rw [if_pos hn] at h0
      have : infMag > 0 := by decide
      omega
    · rw [if_neg hn] at h2
      exact_mod_cast h2
  · have := toInt_le_iff.2 h0
    rwa [show F64.zero.toInt = 0 by decide] at this
  · have := toInt_le_iff.2 h1
    rwa [e1] at this

theorem asSecs_def (ns : Nat) : asSecs ns = F64.add (F64.ofNat (ns / 10 ^ 9)) (fracSec (ns % 10 ^ 9)) := rfl

theorem asSecs_key {ns : Nat} (h : ns < 2 ^ 52 * 10 ^ 9) : (asSecs ns).isNaN = false ∧
    (asSecs ns).key = rkey ((ns / 10 ^ 9 * scale : Nat) + (fracSec (ns % 10 ^ 9)).toInt) 1 := by
  have hs : ns / 10 ^ 9 < 2 ^ 52 := Nat.div_lt_of_lt_mul (by omega)
  have hr : ns % 10 ^ 9 ≤ 10 ^ 9 := (Nat.mod_lt _ (by decide)).le
  rw [asSecs_def]
  have := key_add (ofNat_exact hs).1 (fracSec_range hr).1
  rw [ofNat_toInt hs] at this
  exact ⟨add_not_nan (ofNat_exact hs).1 (fracSec_range hr).1, this⟩

theorem asSecs_key_mono {a b : Nat} (h : a ≤ b) (hb : b < 2 ^ 52 * 10 ^ 9) :
    (asSecs a).key ≤ (asSecs b).key := by
  rw [(asSecs_key (h.trans_lt hb)).2, (asSecs_key hb).2]
  apply rkey_mono Nat.one_pos Nat.one_pos
  rw [Nat.cast_one, mul_one, mul_one]
  have ha := fracSec_range (Nat.mod_lt a (show 0 < 10 ^ 9 by decide)).le
  have hb' := fracSec_range (Nat.mod_lt b (show 0 < 10 ^ 9 by decide)).le
  rcases Nat.lt_or_ge (a / 10 ^ 9) (b / 10 ^ 9) with hlt | hge
  · have h1 : (a / 10 ^ 9 + 1) * scale ≤ b / 10 ^ 9 * scale := Nat.mul_le_mul_right _ hlt
    rw [Nat.add_mul, Nat.one_mul] at h1
    generalize a / 10 ^ 9 * scale = x at *
    generalize b / 10 ^ 9 * scale = y at *
    omega
  · have he : a / 10 ^ 9 = b / 10 ^ 9 := by omega
    rw [he]
    have hm : a % 10 ^ 9 ≤ b % 10 ^ 9 := by omega
    have := toInt_le_iff.2 (fracSec_mono hm (Nat.mod_lt b (show 0 < 10 ^ 9 by decide)).le)
    omega

theorem two_pow_le_scale : 2 ^ 84 ≤ scale := by
  unfold scale
  exact Nat.pow_le_pow_right (by decide) (by decide)

theorem asSecs_within {ns : Nat} (h : ns < 2 ^ 52 * 10 ^ 9) :
    Within 3 (asSecs ns) ((ns : ℚ) / 10 ^ 9 * scale) ((ns : ℚ) / 10 ^ 9 * scale) := by
  have hs : ns / 10 ^ 9 < 2 ^ 52 := Nat.div_lt_of_lt_mul (by omega)
  have hr : ns % 10 ^ 9 < 10 ^ 9 := Nat.mod_lt _ (by decide)
  have hsp : (0 : ℚ) < scale := by exact_mod_cast scale_pos
  have hu := uro_pos
  obtain ⟨f1, p1, v1⟩ := ofNat_exact hs
  have w1 : Within 2 (F64.ofNat (ns / 10 ^ 9)) (((ns / 10 ^ 9 : Nat) : ℚ) * scale)
      (((ns / 10 ^ 9 : Nat) : ℚ) * scale) := by
    have hav : (F64.ofNat (ns / 10 ^ 9)).av = ((ns / 10 ^ 9 : Nat) : ℚ) * scale := by
      unfold av; rw [v1]; push_cast; rfl
    have hnn : (0 : ℚ) ≤ ((ns / 10 ^ 9 : Nat) : ℚ) * scale := by positivity
    refine Within.mono (m := 0) ⟨fin_not_nan f1, p1, ?_, .inr ?_⟩ (by omega)
    · rw [hav]; simp
    · rw [hav]; simp
  have w2 : Within 2 (fracSec (ns % 10 ^ 9)) (((ns % 10 ^ 9 : Nat) : ℚ) / 10 ^ 9 * scale)
      (((ns % 10 ^ 9 : Nat) : ℚ) / 10 ^ 9 * scale) := by
    generalize ns % 10 ^ 9 = r at *
    rcases Nat.eq_zero_or_pos r with rfl | h0
    · rw [fracSec_zero]
      simpa using within_zero 2
    have h9 : 10 ^ 9 < 2 ^ 52 := by decide
    have hr52 : r < 2 ^ 52 := by omega
    obtain ⟨g1, g2, g3⟩ := ofNat_exact hr52
    obtain ⟨t1, t2, t3⟩ := ofNat_exact h9
    have tm : (F64.ofNat (10 ^ 9)).mag ≠ 0 := by
      intro hz
      rw [hz, uval_zero] at t3
      have := Nat.mul_pos (show 0 < 10 ^ 9 by decide) scale_pos
      omega
    have e : fracSec r = mkRound false (roundMag (r * scale * scale) (10 ^ 9 * scale)) := by
      unfold fracSec F64.div
      simp only [fin_not_nan g1, fin_not_nan t1, fin_not_inf g1, fin_not_inf t1, g2, t2, g3, t3, tm,
        Bool.or_self, Bool.false_eq_true, if_false, bne_self_eq_false]
    have hq : 0 < 10 ^ 9 * scale := Nat.mul_pos (by decide) scale_pos
    obtain ⟨q1, q2⟩ := round_q (r * scale * scale) (10 ^ 9 * scale) hq
    have hx : ((r * scale * scale : Nat) : ℚ) / ((10 ^ 9 * scale : Nat) : ℚ) = (r : ℚ) / 10 ^ 9 * scale := by
      push_cast; field_simp; norm_num
    rw [hx] at q1 q2
    have hbig : (1 : ℚ) ≤ uro * ((r : ℚ) / 10 ^ 9 * scale) := by
      have h84 : (2 ^ 84 : ℚ) ≤ scale := by
        have h := (Nat.cast_le (α := ℚ)).2 two_pow_le_scale
        rw [Nat.cast_pow] at h
        exact h
      have hr1 : (1 : ℚ) ≤ r := by exact_mod_cast h0
      generalize (scale : ℚ) = c at h84
      unfold uro
      have h1 : (1 : ℚ) / 10 ^ 9 * 2 ^ 84 ≤ (r : ℚ) / 10 ^ 9 * c := by gcongr
      have h2 : (1 : ℚ) ≤ 1 / 2 ^ 53 * ((1 : ℚ) / 10 ^ 9 * 2 ^ 84) := by norm_num
      exact h2.trans (by gcongr)
    have hX : 0 ≤ (r : ℚ) / 10 ^ 9 * scale := mul_nonneg (div_nonneg (Nat.cast_nonneg _) (by norm_num)) hsp.le
    rw [e]
    have hm := av_mkRound_le false (roundMag (r * scale * scale) (10 ^ 9 * scale))
    have hM := av_mkRound_ge false (roundMag (r * scale * scale) (10 ^ 9 * scale))
    have hnn := mkRound_not_nan false (roundMag (r * scale * scale) (10 ^ 9 * scale))
    have hng := mkRound_neg false (roundMag (r * scale * scale) (10 ^ 9 * scale))
    generalize roundMag (r * scale * scale) (10 ^ 9 * scale) = k at *
    generalize (r : ℚ) / 10 ^ 9 * scale = X at q1 q2 hbig hX ⊢
    clear hx hq e tm g1 g2 g3 t1 t2 t3 w1 v1 f1 p1
    refine ⟨hnn, hng, ?_, ?_⟩
    · refine hm.trans (q1.trans ?_)
      have : 0 ≤ uro ^ 2 * X := by positivity
      nlinarith
    · refine hM.imp id fun hv => ?_
      rw [hv]
      have : uro * (uro * X) ≤ (uro * X) / 2 := by
        have : uro ≤ 1 / 2 := by unfold uro; norm_num
        have h0 : 0 ≤ uro * X := by positivity
        nlinarith
      nlinarith
  have hw := w1.add w2
  rw [← asSecs_def] at hw
  have e : ((ns / 10 ^ 9 : Nat) : ℚ) * scale + ((ns % 10 ^ 9 : Nat) : ℚ) / 10 ^ 9 * scale =
      (ns : ℚ) / 10 ^ 9 * scale := by
    have hd : ((ns : Nat) : ℚ) = 10 ^ 9 * ((ns / 10 ^ 9 : Nat) : ℚ) + ((ns % 10 ^ 9 : Nat) : ℚ) := by
      exact_mod_cast (Nat.div_add_mod ns (10 ^ 9)).symm
    rw [hd]; field_simp
  rw [e] at hw
  exact hw

/-- Seconds below `2^52` are a finite double. -/
theorem asSecs_finite {ns : Nat} (h : ns < 2 ^ 52 * 10 ^ 9) : (asSecs ns).isFinite = true := by
  have hb : 2 ^ 52 * 10 ^ 9 - 1 < 2 ^ 52 * 10 ^ 9 := by decide
  have hm := asSecs_key_mono (a := ns) (b := 2 ^ 52 * 10 ^ 9 - 1) (by omega) hb
  have hf : (asSecs (2 ^ 52 * 10 ^ 9 - 1)).key < infMag := by decide +kernel
  have hp := (asSecs_within h).pos
  rw [isFinite_iff]
  unfold key at hm hf
  rw [hp] at hm
  simp only [Bool.false_eq_true, if_false] at hm
  have h2 := lt_of_le_of_lt hm hf
  exact_mod_cast h2

end GS
