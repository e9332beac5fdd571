/- Square root of doubles and conversion to `usize`. -/
import Verif.F64.Round
import Mathlib.Data.Nat.Sqrt

namespace GS
namespace F64

/-- `f64::sqrt` (correctly rounded): src/scatter_search.rs 644, 739, 832. The square root of `v` units is that of
`v * scale` in units; it is located between multiples of 1/4 and rounded from the middle if it is not one of them, which
gives the same result since rounding boundaries are multiples of 1/2. -/
def sqrt (x : F64) : F64 :=
  if x.isNaN then nan
  else if x.mag = 0 then x
  else if x.neg then nan
  else if x.isInf then x
  else
    let v := 16 * (uval x.mag * scale)
    let s := Nat.sqrt v
    mkRound false (roundMag (2 * s + if s * s = v then 0 else 1) 8)

/-- `x as usize` (64 bits, truncating and saturating): src/scatter_search.rs 644, 739, 832. -/
def toUsize (x : F64) : Nat :=
  if x.isNaN || x.neg then 0
  else if x.isInf then 2 ^ 64 - 1
  else Nat.min (uval x.mag / scale) (2 ^ 64 - 1)

example : sqrt two = F64.ofBits 0x3FF6A09E667F3BCD := by decide +kernel
example : sqrt (lit 1 10) = F64.ofBits 0x3FD43D136248490F := by decide +kernel

theorem exists_mag (k : Nat) (h0 : 0 < k) (h : k < 2 ^ 53) :
    ∃ M, uval M = k * scale ∧ M < infMag ∧ 2 ^ 52 ≤ M := by
  have hl : Nat.log2 k < 53 := (Nat.log2_lt (by omega)).2 h
  have h1 : 2 ^ Nat.log2 k ≤ k := Nat.log2_self_le (by omega)
  have h2 : k < 2 ^ (Nat.log2 k + 1) := Nat.lt_log2_self
  generalize Nat.log2 k = l at *
  have e52 : 2 ^ l * 2 ^ (52 - l) = 2 ^ 52 := by rw [← Nat.pow_add]; congr 1; omega
  have e53 : 2 ^ (l + 1) * 2 ^ (52 - l) = 2 ^ 53 := by rw [← Nat.pow_add]; congr 1; omega
  have b1 : 2 ^ 52 ≤ k * 2 ^ (52 - l) := by rw [← e52]; exact Nat.mul_le_mul_right _ h1
  have b2 : k * 2 ^ (52 - l) < 2 ^ 53 := by
    rw [← e53]; exact Nat.mul_lt_mul_of_pos_right h2 (Nat.pow_pos (by decide))
  refine ⟨(1074 - (52 - l)) * 2 ^ 52 + k * 2 ^ (52 - l), ?_, ?_, ?_⟩
  · rw [uval_mk _ _ (.inr ⟨b1, b2⟩), Nat.mul_assoc, ← Nat.pow_add]
    have : 52 - l + (1074 - (52 - l)) = 1074 := by omega
    rw [this]
    unfold scale
    rfl
  · have h3 : (1074 - (52 - l)) * 2 ^ 52 ≤ 1074 * 2 ^ 52 := Nat.mul_le_mul_right _ (Nat.sub_le _ _)
    unfold infMag
    omega
  · omega

theorem gap_le {m : Nat} (h : 2 ^ 52 ≤ m) : gap m * 2 ^ 52 ≤ uval m := by
  unfold gap uval
  split
  · have : m / 2 ^ 52 - 1 = 0 := by omega
    rw [this]; omega
  · rw [Nat.mul_comm]
    exact Nat.mul_le_mul_right _ (Nat.le_add_right _ _)

/-- Correct rounding: with `V` the square of the root in units, the magnitude of the result is at most `M` exactly when
the root lies below the midpoint of `M` and `M+1`, or on it with `M` even. -/
theorem sqrt_correct {x : F64} (hn : x.neg = false) (hf : x.isFinite = true) (h0 : x.mag ≠ 0)
    {M : Nat} (hM : M < infMag) :
    (sqrt x).mag ≤ M ↔
      4 * (uval x.mag * scale) < (uval M + uval (M + 1)) ^ 2 ∨
      (4 * (uval x.mag * scale) = (uval M + uval (M + 1)) ^ 2 ∧ M % 2 = 0) := by
  have hsq : (sqrt x).mag = Nat.min (roundMag (2 * Nat.sqrt (16 * (uval x.mag * scale)) +
      if Nat.sqrt (16 * (uval x.mag * scale)) * Nat.sqrt (16 * (uval x.mag * scale)) =
        16 * (uval x.mag * scale) then 0 else 1) 8) infMag := by
    unfold sqrt
    simp [fin_not_nan hf, fin_not_inf hf, h0, hn]
  rw [hsq]
  have hs1 := Nat.sqrt_le (16 * (uval x.mag * scale))
  have hs2 := Nat.lt_succ_sqrt (16 * (uval x.mag * scale))
  generalize Nat.sqrt (16 * (uval x.mag * scale)) = s at *
  generalize uval x.mag * scale = V at *
  have hmin : ∀ a, Nat.min a infMag ≤ M ↔ a ≤ M := by
    intro a
    constructor
    · intro h
      by_contra hc
      have : M < Nat.min a infMag := Nat.lt_min.2 ⟨by omega, hM⟩
      omega
    · exact fun h => Nat.le_trans (Nat.min_le_left _ _) h
  rw [hmin, roundMag_le_iff _ _ _ (by decide)]
  generalize uval M + uval (M + 1) = w
  have k1 : 4 * V < w ^ 2 ↔ 16 * V < (2 * w) * (2 * w) := by
    have : (2 * w) * (2 * w) = 4 * w ^ 2 := by ring
    omega
  have k2 : 4 * V = w ^ 2 ↔ 16 * V = (2 * w) * (2 * w) := by
    have : (2 * w) * (2 * w) = 4 * w ^ 2 := by ring
    omega
  rw [k1, k2]
  have k3 : 16 * V < (2 * w) * (2 * w) ↔ s < 2 * w := by
    constructor
    · intro h
      by_contra hc
      have : (2 * w) * (2 * w) ≤ s * s := Nat.mul_le_mul (by omega) (by omega)
      omega
    · intro h
      have : (s + 1) * (s + 1) ≤ (2 * w) * (2 * w) := Nat.mul_le_mul (by omega) (by omega)
      exact Nat.lt_of_lt_of_le hs2 this
  have k4 : 16 * V = (2 * w) * (2 * w) ↔ s = 2 * w ∧ s * s = 16 * V := by
    constructor
    · intro h
      have : s = 2 * w := by
        rcases Nat.lt_trichotomy s (2 * w) with h' | h' | h'
        · have := k3.2 h'
          omega
        · exact h'
        · have := Nat.mul_lt_mul'' h' h'
          omega
      exact ⟨this, by rw [h, this]⟩
    · rintro ⟨rfl, h⟩
      exact h.symm
  rw [k3, k4]
  split
  · rename_i h
    simp only [h, and_true]
    omega
  · rename_i h
    simp only [h, and_false, false_and, or_false]
    omega

theorem sqrt_arith_low {n k c s v : Nat} (hk1 : k * k ≤ n) (hv : v = 16 * (n * c * c))
    (hs2 : v < (s + 1) * (s + 1)) : 4 * (k * c) ≤ s := by
  by_contra hc
  have h1 : (s + 1) * (s + 1) ≤ (4 * (k * c)) * (4 * (k * c)) :=
    Nat.mul_le_mul (by omega) (by omega)
  have h2 : (4 * (k * c)) * (4 * (k * c)) ≤ v := by
    have h3 : k * k * (16 * c * c) ≤ n * (16 * c * c) := Nat.mul_le_mul_right _ hk1
    calc (4 * (k * c)) * (4 * (k * c)) = k * k * (16 * c * c) := by ring
      _ ≤ n * (16 * c * c) := h3
      _ = v := by rw [hv]; ring
  omega

theorem sqrt_arith_upp {n k c s v g : Nat} (hk2 : n < (k + 1) * (k + 1)) (hv : v = 16 * (n * c * c))
    (hs1 : s * s ≤ v) (hg0 : 0 < g) (hgk : (k + 1) * g ≤ c) :
    s + 2 * g + 1 ≤ 4 * ((k + 1) * c) := by
  by_contra hc
  have hlt : 2 * g ≤ 4 * ((k + 1) * c) := by
    have : g ≤ (k + 1) * g := Nat.le_mul_of_pos_left _ (by omega)
    have : c ≤ (k + 1) * c := Nat.le_mul_of_pos_left _ (by omega)
    omega
  obtain ⟨S, hS⟩ : ∃ S, 4 * ((k + 1) * c) = S + 2 * g := ⟨_, (Nat.sub_add_cancel hlt).symm⟩
  have h1 : S * S ≤ s * s := Nat.mul_le_mul (by omega) (by omega)
  have h2 : v + 16 * c * c ≤ (S + 2 * g) * (S + 2 * g) := by
    have h3 : (n + 1) * (16 * c * c) ≤ (k + 1) * (k + 1) * (16 * c * c) :=
      Nat.mul_le_mul_right _ (by omega)
    calc v + 16 * c * c = (n + 1) * (16 * c * c) := by rw [hv]; ring
      _ ≤ (k + 1) * (k + 1) * (16 * c * c) := h3
      _ = (S + 2 * g) * (S + 2 * g) := by rw [← hS]; ring
  have h3 : 4 * (S + 2 * g) * g ≤ 16 * c * c := by
    have h4 : (k + 1) * g * (16 * c) ≤ c * (16 * c) := Nat.mul_le_mul_right _ hgk
    calc 4 * (S + 2 * g) * g = (k + 1) * g * (16 * c) := by rw [← hS]; ring
      _ ≤ c * (16 * c) := h4
      _ = 16 * c * c := by ring
  have h4 : 0 < g * g := Nat.mul_pos hg0 hg0
  have e1 : (S + 2 * g) * (S + 2 * g) = S * S + 4 * (S * g) + 4 * (g * g) := by ring
  have e2 : 4 * (S + 2 * g) * g = 4 * (S * g) + 8 * (g * g) := by ring
  omega

/-- `(n as f64).sqrt() as usize` is the integer square root below `2^52`. -/
theorem toUsize_sqrt_ofNat {n : Nat} (h : n < 2 ^ 52) : toUsize (sqrt (ofNat n)) = Nat.sqrt n := by
  rcases Nat.eq_zero_or_pos n with rfl | h0
  · decide +kernel
  have hs := scale_pos
  obtain ⟨M, hM, hMi, hMb⟩ := exists_mag n h0 (by omega)
  have hof : ofNat n = ⟨false, M, by have := infMag_lt; omega⟩ := by
    unfold ofNat lit
    rw [← hM]
    have := roundMag_uval M 1 (by decide)
    rw [Nat.one_mul] at this
    rw [this]
    unfold mkRound
    congr 1
    exact Nat.min_eq_left hMi.le
  set k := Nat.sqrt n with hk
  have hk1 : k * k ≤ n := Nat.sqrt_le n
  have hk2 : n < (k + 1) * (k + 1) := Nat.lt_succ_sqrt n
  clear_value k
  have hkp : 0 < k := by
    rcases Nat.eq_zero_or_pos k with rfl | h'
    · omega
    · exact h'
  have hkb : k < 2 ^ 26 := by
    by_contra hc
    have : 2 ^ 26 * 2 ^ 26 ≤ k * k := Nat.mul_le_mul (by omega) (by omega)
    omega
  obtain ⟨A, hA, -, -⟩ := exists_mag k hkp (by omega)
  obtain ⟨B, hB, hBi, hBb⟩ := exists_mag (k + 1) (by omega) (by omega)
  have hBne : B ≠ 2 ^ 52 := by
    rintro rfl
    rw [uval_small (by decide)] at hB
    have : 1 * scale ≤ (k + 1) * scale := Nat.mul_le_mul_right _ (by omega)
    have h2 : 2 ^ 52 < scale := by unfold scale; exact Nat.pow_lt_pow_right (by decide) (by decide)
    omega
  obtain ⟨Q, rfl⟩ : ∃ Q, B = Q + 1 := ⟨B - 1, by omega⟩
  have hg0 := gap_pos Q
  have hQ := uval_succ Q
  have hgl := gap_le (m := Q) (by omega)
  rw [hB] at hQ
  generalize hg : gap Q = g at *
  have hgk : (k + 1) * g ≤ scale := by
    have h1 : (k + 1) * scale ≤ 2 ^ 26 * scale := Nat.mul_le_mul_right _ (by omega)
    have h2 : (k + 1) * g ≤ 2 ^ 26 * g := Nat.mul_le_mul_right _ (by omega)
    omega
  -- the result of the square root
  set v := 16 * (uval M * scale) with hv
  set s := Nat.sqrt v with hs'
  have hs1 : s * s ≤ v := Nat.sqrt_le v
  have hs2 : v < (s + 1) * (s + 1) := Nat.lt_succ_sqrt v
  clear_value s
  set p := 2 * s + (if s * s = v then 0 else 1) with hp
  have hp1 : 2 * s ≤ p := by omega
  have hp2 : p ≤ 2 * s + 1 := by rw [hp]; split <;> omega
  have hv' : v = 16 * (n * scale * scale) := by rw [hv, hM]
  have hlow := sqrt_arith_low hk1 hv' hs2
  have hupp := sqrt_arith_upp hk2 hv' hs1 hg0 hgk
  have hr1 : A ≤ roundMag p 8 := le_roundMag_of_le (by decide) (by rw [hA]; omega)
  have hr2 : roundMag p 8 ≤ Q := by
    rw [roundMag_le_iff _ _ _ (by decide)]
    left
    rw [hB]
    omega
  have hsq : sqrt (ofNat n) = mkRound false (roundMag p 8) := by
    rw [hof]
    unfold sqrt
    have n1 : ¬ infMag < M := by omega
    have n2 : ¬ M = 0 := by omega
    have n3 : ¬ M = infMag := by omega
    simp only [isNaN, isInf, n1, n2, n3, decide_false, Bool.false_eq_true, if_false]
    rw [← hv, ← hs', ← hp]
  have hmg : (mkRound false (roundMag p 8)).mag = roundMag p 8 := by
    rw [mkRound_mag]
    exact Nat.min_eq_left (by omega)
  have hni : ¬ roundMag p 8 = infMag := by omega
  rw [hsq]
  unfold toUsize
  rw [mkRound_not_nan]
  simp only [mkRound_neg, Bool.or_self, Bool.false_eq_true, if_false, isInf, hmg, hni, decide_false]
  have e1 : k ≤ uval (roundMag p 8) / scale := by
    rw [Nat.le_div_iff_mul_le hs, ← hA]
    exact uval_le_iff.2 hr1
  have e2 : uval (roundMag p 8) / scale < k + 1 := by
    rw [Nat.div_lt_iff_lt_mul hs, ← hB]
    exact uval_lt_iff.2 (by omega)
  have e3 : uval (roundMag p 8) / scale = k := by omega
  rw [e3]
  exact Nat.min_eq_left (by omega)

/-- The bound cannot be dropped: `2^54 - 1` becomes `2^54`, whose root is `2^27`. -/
theorem toUsize_sqrt_ofNat_large :
    toUsize (sqrt (ofNat (2 ^ 54 - 1))) = 2 ^ 27 ∧ Nat.sqrt (2 ^ 54 - 1) = 2 ^ 27 - 1 := by
  decide +kernel

end F64
end GS
