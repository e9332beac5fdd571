/- Floating-point facts about the tolerance used by the solution set. -/
import Verif.Lemmas.Relax
import Verif.Model.SolutionSet

namespace GS
open F64

/-! ### Rounding as a function of the exact value -/

theorem round_diff {x x' q : Nat} (hq : 0 < q) (h : roundMag x q < roundMag x' q) :
    q * (2 * uval (roundMag x' q)) + 2 * x ≤
      q * (2 * uval (roundMag x q)) + 2 * x' +
        q * (gap (roundMag x q) + gap (roundMag x' q - 1)) := by
  obtain ⟨N, hN⟩ : ∃ N, roundMag x' q = N + 1 := ⟨roundMag x' q - 1, by omega⟩
  have h1 := (roundMag_le_iff x q (roundMag x q) hq).1 (Nat.le_refl _)
  have h2 : ¬ roundMag x' q ≤ N := by omega
  rw [roundMag_le_iff x' q N hq] at h2
  rw [hN, Nat.add_sub_cancel]
  rw [uval_succ] at h1 h2 ⊢
  have e1 : 2 * x ≤ q * (uval (roundMag x q) + (uval (roundMag x q) + gap (roundMag x q))) := by
    rcases h1 with h1 | h1
    · exact Nat.le_of_lt h1
    · exact Nat.le_of_eq h1.1
  have e2 : q * (uval N + (uval N + gap N)) ≤ 2 * x' := by
    by_contra hc
    exact h2 (Or.inl (by omega))
  nlinarith

theorem uval_half {m : Nat} (h : 2 ^ 53 ≤ m) : uval m = 2 * uval (m - 2 ^ 52) := by
  unfold uval
  rw [if_neg (by omega)]
  split
  · have e1 : m / 2 ^ 52 = 2 := by omega
    have e2 : 2 ^ 52 + m % 2 ^ 52 = m - 2 ^ 52 := by omega
    rw [e1, e2]; omega
  · have e1 : (m - 2 ^ 52) % 2 ^ 52 = m % 2 ^ 52 := by omega
    have e2 : m / 2 ^ 52 - 1 = ((m - 2 ^ 52) / 2 ^ 52 - 1) + 1 := by omega
    rw [e1, e2, Nat.pow_succ]
    ring

theorem gap_half {m : Nat} (h : 2 ^ 53 ≤ m) : gap m = 2 * gap (m - 2 ^ 52) := by
  unfold gap
  have e2 : m / 2 ^ 52 - 1 = ((m - 2 ^ 52) / 2 ^ 52 - 1) + 1 := by omega
  rw [e2, Nat.pow_succ]; ring

theorem gap_one {m : Nat} (h : m < 2 ^ 53) : gap m = 1 := by
  unfold gap
  have : m / 2 ^ 52 - 1 = 0 := by omega
  rw [this]; rfl

/-- Growth of `fl(r * x)` for `r <= 1/2`, where the gaps of the results are at most `G`. -/
theorem round_step {p q : Nat} (hq : 0 < q) (hp : 2 * p ≤ q) {k m G : Nat} (h : k ≤ m)
    (hG : gap (roundMag (p * uval m) q - 1) ≤ G) :
    2 * uval (roundMag (p * uval m) q) + uval k ≤
      2 * uval (roundMag (p * uval k) q) + uval m + 2 * G := by
  have hu := uval_le_iff.2 h
  have hmono : roundMag (p * uval k) q ≤ roundMag (p * uval m) q :=
    roundMag_mono hq hq (Nat.mul_le_mul_right _ (Nat.mul_le_mul_left _ hu))
  rcases Nat.eq_or_lt_of_le hmono with he | hlt
  · rw [he]; omega
  · have hd := round_diff hq hlt
    set R := roundMag (p * uval k) q with hR
    set R' := roundMag (p * uval m) q with hR'
    have g2 : gap R ≤ gap (R' - 1) := gap_mono (by omega)
    obtain ⟨d, hd'⟩ : ∃ d, uval m = uval k + d := ⟨uval m - uval k, by omega⟩
    have h1 : 2 * (p * uval m) ≤ 2 * (p * uval k) + q * d := by rw [hd']; nlinarith
    have h2 : q * (2 * uval R') ≤ q * (2 * uval R + d + 2 * G) := by nlinarith
    have h3 := Nat.le_of_mul_le_mul_left h2 hq
    omega

/-- The same with strict inequalities. -/
theorem round_step_lt {p q : Nat} (hq : 0 < q) (hp : 2 * p < q) {k m G : Nat} (h : k < m)
    (hG : gap (roundMag (p * uval m) q - 1) ≤ G) :
    2 * uval (roundMag (p * uval m) q) + uval k <
      2 * uval (roundMag (p * uval k) q) + uval m + 2 * G := by
  have hu := uval_lt_iff.2 h
  have hmono : roundMag (p * uval k) q ≤ roundMag (p * uval m) q :=
    roundMag_mono hq hq (Nat.mul_le_mul_right _ (Nat.mul_le_mul_left _ hu.le))
  rcases Nat.eq_or_lt_of_le hmono with he | hlt
  · rw [he]; omega
  · have hd := round_diff hq hlt
    set R := roundMag (p * uval k) q with hR
    set R' := roundMag (p * uval m) q with hR'
    have g2 : gap R ≤ gap (R' - 1) := gap_mono (by omega)
    obtain ⟨d, hd', hd0⟩ : ∃ d, uval m = uval k + d ∧ 0 < d := ⟨uval m - uval k, by omega, by omega⟩
    have h1 : 2 * (p * uval m) < 2 * (p * uval k) + q * d := by rw [hd']; nlinarith
    have h2 : q * (2 * uval R') < q * (2 * uval R + d + 2 * G) := by nlinarith
    have h3 := Nat.lt_of_mul_lt_mul_left h2
    omega

/-- Halving is exact above the subnormal numbers. -/
theorem round_exact_half {p q : Nat} (hq : 0 < q) (hp : 2 * p = q) {m : Nat} (h : 2 ^ 53 ≤ m) :
    roundMag (p * uval m) q = m - 2 ^ 52 := by
  have : p * uval m = q * uval (m - 2 ^ 52) := by rw [uval_half h, ← hp]; ring
  rw [this, roundMag_uval _ _ hq]

/-- For `r <= 1/2`, `fl(r * x) <= x / 2`. -/
theorem round_half_le {p q : Nat} (hq : 0 < q) (hp : 2 * p ≤ q) {m : Nat} (h : 2 ^ 53 ≤ m) :
    roundMag (p * uval m) q ≤ m - 2 ^ 52 := by
  apply roundMag_le_of_le hq
  rw [uval_half h]; nlinarith

/-- Gaps are constant within a binade. -/
theorem gap_binade {a b : Nat} (h : a / 2 ^ 52 = b / 2 ^ 52) : gap a = gap b := by
  unfold gap; rw [h]

/-- A number at the bottom of a binade is `2^52` gaps. -/
theorem uval_bottom {e : Nat} (he : 2 ≤ e) : uval (e * 2 ^ 52) = 2 ^ 52 * gap (e * 2 ^ 52) := by
  unfold uval gap
  rw [if_neg (by omega), Nat.mul_mod_left, Nat.mul_div_cancel _ (by decide), Nat.add_zero]

theorem half_below_aux {A p q g S : Nat} (hq : 0 < q) (hg : 0 < g)
    (hp : 4 * A * p + q ≤ 2 * A * q)
    (hS : 2 * S = 2 * A * g + g) : 2 * (p * (A * g + g)) < q * S := by
  have e6 := Nat.mul_le_mul_right (g * (A + 1)) hp
  have e7 : 0 < q * g := Nat.mul_pos hq hg
  have e11 : 2 * (q * S) = q * (2 * A * g + g) := by rw [← hS]; ring
  have : 4 * A * (p * (A * g + g)) < 2 * A * (q * S) := by nlinarith
  have h3 : 2 * A * (2 * (p * (A * g + g))) < 2 * A * (q * S) := by linarith
  exact Nat.lt_of_mul_lt_mul_left h3

theorem half_below {p q g S : Nat} (hq : 0 < q) (hg : 0 < g) (hp : 2 ^ 54 * p + q ≤ 2 ^ 53 * q)
    (hS : 2 * S = 2 ^ 53 * g + g) : 2 * (p * (2 ^ 52 * g + g)) < q * S :=
  half_below_aux (A := 2 ^ 52) hq hg (by omega) (by omega)
/-- For `r <= 1/2`, rounding cannot lose a better solution: the two comparisons with the head exclude each
other. -/
theorem round_half {p q : Nat} (hq : 0 < q) (hp : 2 * p = q ∨ 2 ^ 54 * p + q ≤ 2 ^ 53 * q) {k m : Nat}
    (h0 : 0 < k) (h : k < m)
    (h1 : 2 * uval m + gap (k - 1) + 2 * uval (roundMag (p * uval k) q) ≤
      2 * uval (roundMag (p * uval m) q) + gap (m - 1) + 2 * uval k)
    (h2 : 2 * uval m + 2 + 2 * uval (roundMag (p * uval k) q) ≤
      2 * uval (roundMag (p * uval m) q) + gap (m - 1) + 2 * uval k) : False := by
  have hle : 2 * p ≤ q := by omega
  have hu := uval_lt_iff.2 h
  by_cases hm : m ≤ 2 ^ 53
  · -- all gaps are one unit
    have g1 : gap (m - 1) = 1 := gap_one (by omega)
    have hR : roundMag (p * uval m) q ≤ m := by
      apply roundMag_le_of_le hq; nlinarith
    have := round_step hq hle h.le (G := 1) (by rw [gap_one (by omega)])
    omega
  have hm : 2 ^ 53 ≤ m - 1 := by omega
  obtain ⟨e, he⟩ : ∃ e, (m - 1) / 2 ^ 52 = e := ⟨_, rfl⟩
  have he2 : 2 ≤ e := by omega
  have hum : uval m = uval (m - 1) + gap (m - 1) := by
    have := uval_succ (m - 1)
    rwa [Nat.sub_add_cancel (by omega)] at this
  have huk : uval k = uval (k - 1) + gap (k - 1) := by
    have := uval_succ (k - 1)
    rwa [Nat.sub_add_cancel (by omega)] at this
  have hkm : uval k ≤ uval (m - 1) := uval_le_iff.2 (by omega)
  have hR' := round_half_le hq hle (m := m) (by omega)
  have hgm := gap_half (m := m - 1) (by omega)
  have hG' : gap (roundMag (p * uval m) q - 1) ≤ gap (m - 1 - 2 ^ 52) := gap_mono (by omega)
  by_cases hk : e * 2 ^ 52 ≤ k - 1
  · -- same binade
    have hg : gap (k - 1) = gap (m - 1) := gap_binade (by omega)
    rcases hp with hp | hp
    · rw [round_exact_half hq hp (m := m) (by omega), round_exact_half hq hp (m := k) (by omega)] at h1
      have e1 := uval_half (m := m) (by omega)
      have e2 := uval_half (m := k) (by omega)
      omega
    · have := round_step_lt hq (show 2 * p < q by omega) h hG'
      omega
  · obtain ⟨b, hb⟩ : ∃ b, e * 2 ^ 52 = b := ⟨_, rfl⟩
    have hbm : b ≤ m - 1 := by omega
    have hgb : gap b = gap (m - 1) := gap_binade (by omega)
    have hbot : uval b = 2 ^ 52 * gap b := by rw [← hb]; exact uval_bottom he2
    have hgb1 : 2 * gap (b - 1) = gap (m - 1) := by
      rw [hgm]
      have : gap (b - 1) = gap (m - 1 - 2 ^ 52) := by
        by_cases h3 : e = 2
        · subst h3
          rw [gap_one (by omega), gap_one (by omega)]
        · exact gap_binade (by omega)
      omega
    have hgb2 : gap (b - 2) = gap (b - 1) := by
      apply gap_binade; omega
    have hub : uval b = uval (b - 2) + 2 * gap (b - 1) := by
      have a1 := uval_succ (b - 1)
      have a2 := uval_succ (b - 2)
      rw [Nat.sub_add_cancel (by omega)] at a1
      rw [show b - 2 + 1 = b - 1 by omega] at a2
      omega
    -- below the binade
    have low : 2 * uval (roundMag (p * uval b) q) + 2 * uval k + gap (b - 1) ≤
        2 * uval (roundMag (p * uval k) q) + 2 * uval b + gap (k - 1) := by
      rcases Nat.eq_or_lt_of_le (show k ≤ b by omega) with hkb | hkb
      · subst hkb; omega
      · have hkb2 : uval (k - 1) ≤ uval (b - 2) := uval_le_iff.2 (by omega)
        have hQ' := round_half_le hq hle (m := b) (by omega)
        by_cases h3 : e = 2
        · have : gap (b - 1) = 1 := gap_one (by omega)
          have hgk : gap (k - 1) = 1 := gap_one (by omega)
          have := round_step hq hle hkb.le (G := 1) (by rw [gap_one (by omega)])
          have := uval_lt_iff.2 hkb
          omega
        · have hgq : gap (roundMag (p * uval b) q - 1) ≤ gap (b - 1 - 2 ^ 52) := gap_mono (by omega)
          have := gap_half (m := b - 1) (by omega)
          have := round_step hq hle hkb.le hgq
          omega
    -- in the binade
    have high : 2 * uval (roundMag (p * uval m) q) + 2 * uval b + gap (b - 1) <
        2 * uval (roundMag (p * uval b) q) + 2 * uval m := by
      have hbu : uval b ≤ uval (m - 1) := uval_le_iff.2 hbm
      have hgp := gap_pos (b - 1)
      rcases hp with hp | hp
      · rw [round_exact_half hq hp (m := m) (by omega), round_exact_half hq hp (m := b) (by omega)]
        have e1 := uval_half (m := m) (by omega)
        have e2 := uval_half (m := b) (by omega)
        omega
      · by_cases hmb : m = b + 1
        · have hR2 : roundMag (p * uval m) q ≤ b - 2 ^ 52 := by
            rw [roundMag_le_iff _ _ _ hq]
            left
            have e1 := uval_half (m := b) (by omega)
            have e2 := uval_half (m := b + 1) (by omega)
            rw [show b - 2 ^ 52 + 1 = b + 1 - 2 ^ 52 by omega]
            have e3 : uval m = uval b + gap b := by rw [hmb]; exact uval_succ b
            have hgp2 := gap_pos b
            have e4 : 2 * (uval (b - 2 ^ 52) + uval (b + 1 - 2 ^ 52)) = 2 ^ 53 * gap b + gap b := by
              rw [hmb] at e3; omega
            have e5 : uval m = 2 ^ 52 * gap b + gap b := by omega
            rw [e5]
            exact half_below hq hgp2 hp e4
          by_cases h3 : e = 2
          · have g1 : gap (b - 1) = 1 := gap_one (by omega)
            have := round_step_lt hq (show 2 * p < q by omega) (show b < m by omega) (G := 1) (by rw [gap_one (by omega)])
            omega
          · have hgq : gap (roundMag (p * uval m) q - 1) ≤ gap (b - 1 - 2 ^ 52) := gap_mono (by omega)
            have := gap_half (m := b - 1) (by omega)
            have := round_step_lt hq (show 2 * p < q by omega) (show b < m by omega) hgq
            omega
        · have hb2 : uval b + gap b ≤ uval (m - 1) := by
            rw [← uval_succ]; exact uval_le_iff.2 (by omega)
          have := round_step hq hle (show b ≤ m by omega) hG'
          omega
    omega

/-- A number below one half is below it by at least `2^-54`. -/
theorem half_grain {m : Nat} (h : 2 * uval m ≤ scale) :
    2 * uval m = scale ∨ 2 ^ 54 * uval m + scale ≤ 2 ^ 53 * scale := by
  obtain ⟨X, hX⟩ : ∃ X, 2 ^ 1020 = X := ⟨_, rfl⟩
  have hs : scale = 2 ^ 54 * X := by
    unfold scale
    rw [← hX, ← Nat.pow_add]
  have hg : gap (1022 * 2 ^ 52 - 1) = X := by
    unfold gap
    rw [show (1022 * 2 ^ 52 - 1) / 2 ^ 52 - 1 = 1020 by decide, hX]
  have hh : uval (1022 * 2 ^ 52) = 2 ^ 53 * X := by
    rw [uval_bottom (by decide)]
    have : gap (1022 * 2 ^ 52) = 2 * X := by
      unfold gap
      rw [show 1022 * 2 ^ 52 / 2 ^ 52 - 1 = 1020 + 1 by decide, Nat.pow_succ, hX, Nat.mul_comm]
    rw [this]; omega
  have h1 := uval_succ (1022 * 2 ^ 52 - 1)
  rw [hg, show 1022 * 2 ^ 52 - 1 + 1 = 1022 * 2 ^ 52 by decide, hh] at h1
  rcases Nat.eq_or_lt_of_le h with he | hl
  · exact Or.inl he
  · right
    have h2 : uval m < uval (1022 * 2 ^ 52) := by omega
    have h3 := uval_lt_iff.1 h2
    have h4 : uval m ≤ uval (1022 * 2 ^ 52 - 1) := uval_le_iff.2 (by omega)
    omega

/-! ### The tolerance as an exact number -/

/-- `rel_tol * max(|a|, |b|)` in units, for magnitudes. -/
def relMag (r : F64) (M : Nat) : Nat := roundMag (uval r.mag * uval M) scale

theorem toInt_nonneg {x : F64} (h : 0 ≤ x.key) : x.toInt = uval x.mag ∧ 0 ≤ x.toInt := by
  unfold key at h
  unfold toInt
  by_cases hn : x.neg = true
  · rw [if_pos hn] at h ⊢
    have : x.mag = 0 := by omega
    rw [this]; decide
  · rw [if_neg hn]; exact ⟨rfl, by omega⟩

theorem absMax_mag {x y : F64} (hx : x.isNaN = false) (hy : y.isNaN = false) :
    (x.abs.max y.abs).mag = Nat.max x.mag y.mag ∧ (x.abs.max y.abs).neg = false := by
  unfold F64.max
  simp only [abs_isNaN, hx, hy, Bool.false_eq_true, if_false]
  split
  · rename_i h
    have h := (lt_iff.1 h).2.2
    have h1 : (abs x).key = x.mag := rfl
    have h2 : (abs y).key = y.mag := rfl
    refine ⟨?_, rfl⟩
    have : Nat.max x.mag y.mag = y.mag := Nat.max_eq_right (by omega)
    rw [this]; rfl
  · rename_i h
    rw [lt_iff] at h
    have h1 : (abs x).key = x.mag := rfl
    have h2 : (abs y).key = y.mag := rfl
    have hle : y.mag ≤ x.mag := by
      by_contra hc
      exact h ⟨hx, hy, by omega⟩
    refine ⟨?_, rfl⟩
    have : Nat.max x.mag y.mag = x.mag := Nat.max_eq_left hle
    rw [this]; rfl

theorem relMag_le {r : F64} (h : 2 * uval r.mag ≤ scale) (M : Nat) : relMag r M ≤ M := by
  apply roundMag_le_of_le scale_pos
  nlinarith [scale_pos]

theorem key_nonneg_of_toInt {x : F64} (h : 0 ≤ x.toInt) : 0 ≤ x.key := by
  have := @toInt_le_iff F64.zero x
  have hz : F64.zero.toInt = 0 := by decide
  have hz' : F64.zero.key = 0 := by decide
  omega

theorem relMul_toInt {r x y : F64} (hr0 : 0 ≤ r.key) (hr : 2 * uval r.mag ≤ scale)
    (hrf : r.isFinite = true) (hx : x.isFinite = true) (hy : y.isFinite = true) :
    (r.mul (x.abs.max y.abs)).isFinite = true ∧
    (r.mul (x.abs.max y.abs)).mag = relMag r (Nat.max x.mag y.mag) ∧
    (r.mul (x.abs.max y.abs)).toInt = uval (relMag r (Nat.max x.mag y.mag)) := by
  obtain ⟨hm, hn⟩ := absMax_mag (fin_not_nan hx) (fin_not_nan hy)
  set w := x.abs.max y.abs with hw
  have hMf : Nat.max x.mag y.mag < infMag := Nat.max_lt.2 ⟨isFinite_iff.1 hx, isFinite_iff.1 hy⟩
  have hwf : w.isFinite = true := by rw [isFinite_iff, hm]; exact hMf
  have hle := relMag_le hr (Nat.max x.mag y.mag)
  have hmag : (r.mul w).mag = relMag r (Nat.max x.mag y.mag) := by
    unfold F64.mul
    simp only [fin_not_nan hrf, fin_not_nan hwf, fin_not_inf hrf, fin_not_inf hwf, Bool.or_self,
      Bool.false_eq_true, if_false, hm]
    unfold mkRound
    dsimp only
    exact Nat.min_eq_left (by unfold relMag at hle; omega)
  refine ⟨by rw [isFinite_iff, hmag]; omega, hmag, ?_⟩
  have hk : 0 ≤ (r.mul w).key := by
    rw [key_mul hrf hwf]
    apply rkey_nonneg
    have h1 := (toInt_nonneg hr0).2
    have h2 : 0 ≤ w.toInt := by unfold toInt; rw [hn]; simp
    exact mul_nonneg h1 h2
  rw [(toInt_nonneg hk).1, hmag]

theorem tolerance_toInt {a r x y : F64} (ha : a.isFinite = true)
    (hr0 : 0 ≤ r.key) (hr : 2 * uval r.mag ≤ scale) (hrf : r.isFinite = true)
    (hx : x.isFinite = true) (hy : y.isFinite = true) :
    (tolerance a r x y).isFinite = true ∧
    ((tolerance a r x y).toInt = a.toInt ∧
        (uval (relMag r (Nat.max x.mag y.mag)) : Int) ≤ a.toInt ∨
      (tolerance a r x y).toInt = uval (relMag r (Nat.max x.mag y.mag)) ∧
        (tolerance a r x y).mag = relMag r (Nat.max x.mag y.mag) ∧
        a.toInt ≤ uval (relMag r (Nat.max x.mag y.mag))) := by
  obtain ⟨h1, h2, h3⟩ := relMul_toInt hr0 hr hrf hx hy
  unfold tolerance
  set w := r.mul (x.abs.max y.abs) with hw
  unfold F64.max
  simp only [fin_not_nan ha, fin_not_nan h1, Bool.false_eq_true, if_false]
  split
  · rename_i h
    have := toInt_lt_iff.2 (lt_iff.1 h).2.2
    refine ⟨h1, Or.inr ⟨h3, h2, by omega⟩⟩
  · rename_i h
    rw [lt_iff] at h
    have : w.toInt ≤ a.toInt := by
      rw [toInt_le_iff]
      by_contra hc
      exact h ⟨fin_not_nan ha, fin_not_nan h1, by omega⟩
    exact ⟨ha, Or.inl ⟨rfl, by omega⟩⟩

theorem relMag_mono {r : F64} {M M' : Nat} (h : M ≤ M') : relMag r M ≤ relMag r M' :=
  roundMag_mono scale_pos scale_pos (Nat.mul_le_mul_right _ (Nat.mul_le_mul_left _
    (uval_le_iff.2 h)))

theorem toInt_abs (x : F64) : x.toInt = uval x.mag ∨ x.toInt = -(uval x.mag : Int) := by
  unfold toInt; split <;> simp

theorem toInt_abs' {x : F64} : |x.toInt| = uval x.mag := by
  unfold toInt; split <;> simp

/-- If the rounded difference exceeds `s`, so does the exact one. -/
theorem lt_of_lt_sub {s x t : F64} (hs : s.isFinite = true) (hx : x.isFinite = true)
    (ht : t.isFinite = true) (h : s.key < (x.sub t).key) : s.toInt < x.toInt - t.toInt := by
  by_contra hc
  rw [key_sub hx ht] at h
  have := rkey_le_of_le (z := x.toInt - t.toInt) (d := 1) (by decide) (fin_not_nan hs)
    (by push_cast; omega)
  omega

/-- Rounding to at most a negative number bounds the exact value by the midpoint above it. -/
theorem le_of_rkey_le {z : Int} {m : F64} (hm : m.mag < infMag) (h0 : m.neg = true) (hp : 0 < m.mag)
    (h : rkey z 1 ≤ m.key) : 2 * z ≤ 2 * m.toInt + gap (m.mag - 1) := by
  have hk : m.key = -(m.mag : Int) := by unfold key; rw [if_pos h0]
  have ht : m.toInt = -(uval m.mag : Int) := by unfold toInt; rw [if_pos h0]
  rw [hk] at h
  unfold rkey at h
  split at h
  · rename_i hz
    obtain ⟨M, hM⟩ : ∃ M, m.mag = M + 1 := ⟨m.mag - 1, by omega⟩
    have h1 : ¬ roundMag z.natAbs 1 ≤ M := by
      intro hc
      have : Nat.min (roundMag z.natAbs 1) infMag ≤ M := Nat.le_trans (Nat.min_le_left _ _) hc
      omega
    rw [roundMag_le_iff _ _ _ (by decide), uval_succ] at h1
    rw [ht, hM, uval_succ, Nat.add_sub_cancel]
    omega
  · have : (0 : Int) ≤ ((Nat.min (roundMag z.natAbs 1) infMag : Nat) : Int) := by omega
    omega

/-- Rounding above a negative number bounds the exact value by the midpoint above it. -/
theorem le_of_lt_rkey {z : Int} {m : F64} (hm : m.mag < infMag) (h0 : m.neg = true) (hp : 0 < m.mag)
    (h : m.key < rkey z 1) : 2 * m.toInt + gap (m.mag - 1) ≤ 2 * z := by
  have hk : m.key = -(m.mag : Int) := by unfold key; rw [if_pos h0]
  have ht : m.toInt = -(uval m.mag : Int) := by unfold toInt; rw [if_pos h0]
  obtain ⟨M, hM⟩ : ∃ M, m.mag = M + 1 := ⟨m.mag - 1, by omega⟩
  rw [hk] at h
  rw [ht, hM, uval_succ, Nat.add_sub_cancel]
  unfold rkey at h
  split at h
  · rename_i hz
    have h1 : roundMag z.natAbs 1 ≤ M := by
      have : Nat.min (roundMag z.natAbs 1) infMag ≤ M := by omega
      rcases Nat.le_total (roundMag z.natAbs 1) infMag with c | c
      · rwa [show Nat.min (roundMag z.natAbs 1) infMag = roundMag z.natAbs 1 from Nat.min_eq_left c] at this
      · rw [show Nat.min (roundMag z.natAbs 1) infMag = infMag from Nat.min_eq_right c] at this
        omega
    rw [roundMag_le_iff _ _ _ (by decide), uval_succ] at h1
    omega
  · omega
theorem max_key_left {x y : F64} (hx : x.isNaN = false) :
    x.key ≤ (x.max y).key ∧ (x.max y).isNaN = false := by
  unfold F64.max
  rw [hx]
  simp only [Bool.false_eq_true, if_false]
  split
  · exact ⟨Int.le_refl _, hx⟩
  · split
    · rename_i h1 h2
      have := lt_iff.1 h2
      exact ⟨by omega, this.2.1⟩
    · exact ⟨Int.le_refl _, hx⟩

/-- Subtracting a non-negative tolerance never increases (if the result is not NaN). -/
theorem sub_le_self {x t : F64} (ht : t.isNaN = false) (h0 : 0 ≤ t.key)
    (hn : (x.sub t).isNaN = false) : (x.sub t).key ≤ x.key ∧ x.isNaN = false := by
  have hx : x.isNaN = false := by
    by_contra hc
    have hc : x.isNaN = true := by simpa using hc
    have : x.sub t = F64.nan := by simp [F64.sub, F64.add, hc]
    rw [this] at hn; exact absurd hn (by decide)
  refine ⟨?_, hx⟩
  rcases class_cases x with h | h | h
  · simp [h.1] at hx
  · unfold F64.sub F64.add at hn ⊢
    simp only [hx, fneg_isNaN, ht, h.2.1, Bool.or_self, Bool.false_eq_true, if_false, if_true] at hn ⊢
    split
    · rename_i hc; rw [if_pos hc] at hn; exact absurd hn (by decide)
    · exact Int.le_refl _
  · rcases class_cases t with k | k | k
    · simp [k.1] at ht
    · have : x.sub t = fneg t := add_inf_right h.2.2 (by simpa using k.2.1)
      rw [this, fneg_key]
      have h2 := isInf_iff.1 k.2.1
      have hm : x.mag < infMag := isFinite_iff.1 h.2.2
      have : t.key = infMag := by
        unfold key at h0 ⊢
        cases hneg : t.neg <;> simp only [hneg, h2, Bool.false_eq_true, if_false, if_true] at h0 ⊢
        have : (0 : Int) < infMag := by decide
        omega
      rw [this]
      unfold key
      split <;> omega
    · rw [key_sub h.2.2 k.2.2]
      have h3 : 0 ≤ t.toInt := by
        have := @toInt_le_iff F64.zero t
        have hz : F64.zero.toInt = 0 := by decide
        have hz' : F64.zero.key = 0 := by decide
        omega
      exact rkey_le_of_le (by decide) hx (by push_cast; omega)

/-! ### Monotonicity of the tolerance, for any non-negative finite `rel_tol` -/

theorem max_key {a b : F64} (ha : a.isNaN = false) (hb : b.isNaN = false) :
    (a.max b).isNaN = false ∧ ((a.max b).key = a.key ∧ b.key ≤ a.key ∨
      (a.max b).key = b.key ∧ a.key ≤ b.key) := by
  unfold F64.max
  simp only [ha, hb, Bool.false_eq_true, if_false]
  split
  · rename_i h
    exact ⟨hb, Or.inr ⟨rfl, by have := (lt_iff.1 h).2.2; omega⟩⟩
  · rename_i h
    refine ⟨ha, Or.inl ⟨rfl, ?_⟩⟩
    by_contra hc
    exact h (lt_iff.2 ⟨ha, hb, by omega⟩)

theorem tolerance_mono {a r x y x' y' : F64} (ha : a.isNaN = false) (hr0 : 0 ≤ r.key)
    (hrf : r.isFinite = true) (hx : x.isFinite = true) (hy : y.isFinite = true)
    (hx' : x'.isFinite = true) (hy' : y'.isFinite = true)
    (h : Nat.max x.mag y.mag ≤ Nat.max x'.mag y'.mag) :
    (tolerance a r x y).isNaN = false ∧
      (tolerance a r x y).key ≤ (tolerance a r x' y').key := by
  have mk : ∀ u v : F64, u.isFinite = true → v.isFinite = true →
      (u.abs.max v.abs).isFinite = true ∧
        (u.abs.max v.abs).toInt = uval (Nat.max u.mag v.mag) := by
    intro u v hu hv
    obtain ⟨h1, h2⟩ := absMax_mag (fin_not_nan hu) (fin_not_nan hv)
    constructor
    · rw [isFinite_iff, h1]
      exact Nat.max_lt.2 ⟨isFinite_iff.1 hu, isFinite_iff.1 hv⟩
    · unfold toInt; rw [h2, h1]; simp
  obtain ⟨f1, e1⟩ := mk x y hx hy
  obtain ⟨f2, e2⟩ := mk x' y' hx' hy'
  have n1 := mul_not_nan hrf f1
  have n2 := mul_not_nan hrf f2
  have hk : (r.mul (x.abs.max y.abs)).key ≤ (r.mul (x'.abs.max y'.abs)).key := by
    rw [key_mul hrf f1, key_mul hrf f2]
    apply rkey_mono scale_pos scale_pos
    rw [e1, e2]
    have h0 := (toInt_nonneg hr0).2
    have hu : (uval (Nat.max x.mag y.mag) : Int) ≤ uval (Nat.max x'.mag y'.mag) := by
      exact_mod_cast uval_le_iff.2 h
    exact mul_le_mul_of_nonneg_right (mul_le_mul_of_nonneg_left hu h0) (by omega)
  unfold tolerance
  obtain ⟨m1, k1⟩ := max_key ha n1
  obtain ⟨_, k2⟩ := max_key ha n2
  refine ⟨m1, ?_⟩
  rcases k1 with k1 | k1 <;> rcases k2 with k2 | k2 <;> omega

/-- `x - t` is monotone in `x` and antitone in `t`, for finite `x` and non-negative `t`. -/
theorem sub_mono {x x' t t' : F64} (hx : x.isFinite = true) (hx' : x'.isFinite = true)
    (ht : t.isNaN = false) (ht' : t'.isNaN = false) (h0 : 0 ≤ t.key)
    (hxx : x'.key ≤ x.key) (htt : t.key ≤ t'.key) :
    (x'.sub t').key ≤ (x.sub t).key ∧ (x.sub t).isNaN = false ∧ (x'.sub t').isNaN = false := by
  have neg_inf : ∀ u v : F64, u.isFinite = true → v.isInf = true → 0 ≤ v.key →
      (u.sub v).key = -(infMag : Int) ∧ (u.sub v).isNaN = false := by
    intro u v hu hv hv0
    have h1 : u.sub v = fneg v := add_inf_right hu (by simpa using hv)
    have h2 := isInf_iff.1 hv
    rw [h1, fneg_key]
    refine ⟨?_, by simp [F64.isNaN, fneg, h2]⟩
    unfold key at hv0 ⊢
    cases hneg : v.neg <;> simp only [hneg, h2, Bool.false_eq_true, if_false, if_true] at hv0 ⊢
    have : (0 : Int) < infMag := by decide
    omega
  have low : ∀ u : F64, u.isNaN = false → -(infMag : Int) ≤ u.key := by
    intro u hu
    have := not_isNaN_iff.1 hu
    unfold key; split <;> omega
  have cl : ∀ v : F64, v.isNaN = false → v.isInf = true ∨ v.isFinite = true := by
    intro v hv
    rcases class_cases v with c | c | c
    · rw [c.1] at hv; cases hv
    · exact Or.inl c.2.1
    · exact Or.inr c.2.2
  have hnn : (x.sub t).isNaN = false := by
    rcases cl t ht with c | c
    · exact (neg_inf x t hx c h0).2
    · exact sub_not_nan hx c
  have hnn' : (x'.sub t').isNaN = false := by
    rcases cl t' ht' with c | c
    · exact (neg_inf x' t' hx' c (by omega)).2
    · exact sub_not_nan hx' c
  refine ⟨?_, hnn, hnn'⟩
  rcases cl t' ht' with c | c
  · rw [(neg_inf x' t' hx' c (by omega)).1]
    exact low _ hnn
  · have c2 : t.isFinite = true := by
      rcases cl t ht with d | d
      · exfalso
        have h1 := isInf_iff.1 d
        have h2 := isFinite_iff.1 c
        have : t.key = infMag := by
          unfold key at h0 ⊢
          cases hneg : t.neg <;> simp only [hneg, h1, Bool.false_eq_true, if_false, if_true] at h0 ⊢
          have : (0 : Int) < infMag := by decide
          omega
        have : t'.key < infMag := by unfold key; split <;> omega
        omega
      · exact d
    rw [key_sub hx c2, key_sub hx' c]
    apply rkey_mono (by decide) (by decide)
    have := toInt_le_iff.2 hxx
    have := toInt_le_iff.2 htt
    push_cast; omega

/-- A solution that did not beat the head is not better than one that does (`rel_tol <= 1/2`). -/
theorem no_loss {a r m s hd : F64} (ha : a.isNaN = false) (ha0 : 0 ≤ a.key)
    (hr0 : 0 ≤ r.key) (hr : 2 * uval r.mag ≤ scale) (hrf : r.isFinite = true)
    (hm : m.isFinite = true) (hs : s.isFinite = true) (hh : hd.isFinite = true)
    (hold : (hd.sub (tolerance a r m hd)).isNaN = false →
      (hd.sub (tolerance a r m hd)).key ≤ m.key)
    (hnew : s.key < (hd.sub (tolerance a r s hd)).key) : s.key ≤ m.key := by
  by_contra hc
  have hmag0 : ∀ y z : F64, y.isFinite = true → z.isFinite = true →
      (tolerance a r y z).isNaN = false ∧ 0 ≤ (tolerance a r y z).key := by
    intro y z hy hz
    refine ⟨(tolerance_mono ha hr0 hrf hy hz hy hz (Nat.le_refl _)).1, ?_⟩
    have := (max_key_left (y := r.mul (y.abs.max z.abs)) ha).1
    unfold tolerance; omega
  obtain ⟨nm, m0⟩ := hmag0 m hd hm hh
  obtain ⟨ns, s0⟩ := hmag0 s hd hs hh
  -- equal or smaller tolerance at `m`: direct contradiction
  have fin1 : (tolerance a r m hd).key ≤ (tolerance a r s hd).key → False := by
    intro hle
    obtain ⟨k1, k2, _⟩ := sub_mono hh hh nm ns m0 (Int.le_refl _) hle
    have := hold k2
    omega
  rcases Nat.lt_or_ge (Nat.max s.mag hd.mag) (Nat.max m.mag hd.mag) with c | c
  swap
  · exact fin1 (tolerance_mono ha hr0 hrf hm hh hs hh c).2
  have hmm : Nat.max m.mag hd.mag = m.mag := by
    rcases Nat.le_total m.mag hd.mag with d | d
    · have e : Nat.max m.mag hd.mag = hd.mag := Nat.max_eq_right d
      have : hd.mag ≤ Nat.max s.mag hd.mag := Nat.le_max_right _ _
      omega
    · exact Nat.max_eq_left d
  have hsK : s.mag ≤ Nat.max s.mag hd.mag := Nat.le_max_left _ _
  have haf : a.isFinite = true := by
    rcases class_cases a with d | d | d
    · rw [d.1] at ha; cases ha
    · exfalso
      apply fin1
      have hi : ∀ y, (tolerance a r y hd).key ≤ infMag ∧ a.key ≤ (tolerance a r y hd).key ∨
          y.isFinite = false := by
        intro y
        by_cases hy : y.isFinite = true
        · left
          obtain ⟨n1, _⟩ := hmag0 y hd hy hh
          refine ⟨key_le_inf n1, ?_⟩
          exact (max_key_left (y := r.mul (y.abs.max hd.abs)) ha).1
        · right; simpa using hy
      have hak : a.key = infMag := by
        have h2 := isInf_iff.1 d.2.1
        unfold key at ha0 ⊢
        cases hneg : a.neg <;> simp only [hneg, h2, Bool.false_eq_true, if_false, if_true] at ha0 ⊢
        have : (0 : Int) < infMag := by decide
        omega
      rcases hi m with h1 | h1
      · rcases hi s with h2 | h2
        · omega
        · rw [hs] at h2; cases h2
      · rw [hm] at h1; cases h1
    · exact d.2.2
  obtain ⟨f1, t1⟩ := tolerance_toInt haf hr0 hr hrf hm hh
  obtain ⟨f2, t2⟩ := tolerance_toInt haf hr0 hr hrf hs hh
  have hz := lt_of_lt_sub hs hh f2 hnew
  have hold' := hold (sub_not_nan hh f1)
  rw [key_sub hh f1] at hold'
  have hTs : a.toInt ≤ (tolerance a r s hd).toInt ∧
      (uval (relMag r (Nat.max s.mag hd.mag)) : Int) ≤ (tolerance a r s hd).toInt := by
    rcases t2 with t2 | t2 <;> omega
  rcases t1 with t1 | t1
  · exact fin1 (toInt_le_iff.1 (by omega))
  · rw [hmm] at t1 c
    have hneg : m.neg = true := by
      by_contra hn
      have hn : m.neg = false := by simpa using hn
      apply hc
      unfold key
      rw [hn]
      split
      · simp
        try omega
      · simp only [Bool.false_eq_true, if_false]; omega
    have hb := le_of_rkey_le (isFinite_iff.1 hm) hneg (by omega) hold'
    unfold relMag at t1 hTs
    have hmt : m.toInt = -(uval m.mag : Int) := by unfold toInt; rw [if_pos hneg]
    have hK0 : 0 < Nat.max s.mag hd.mag := by
      by_contra h0
      have e1 : s.mag = 0 := by omega
      have e2 : hd.mag ≤ Nat.max s.mag hd.mag := Nat.le_max_right _ _
      have e3 : hd.mag = 0 := by omega
      have e4 := toInt_eq_zero_iff.2 e1
      have e5 := toInt_eq_zero_iff.2 e3
      omega
    have huK : uval (Nat.max s.mag hd.mag) =
        uval (Nat.max s.mag hd.mag - 1) + gap (Nat.max s.mag hd.mag - 1) := by
      have := uval_succ (Nat.max s.mag hd.mag - 1)
      rwa [Nat.sub_add_cancel (by omega)] at this
    -- the new best is above the midpoint below the largest magnitude
    have hmid : 2 * -(uval (Nat.max s.mag hd.mag) : Int) + gap (Nat.max s.mag hd.mag - 1) ≤
        2 * (hd.toInt - (tolerance a r s hd).toInt) := by
      by_cases he : s.mag = Nat.max s.mag hd.mag ∧ s.neg = true
      · have := le_of_lt_rkey (isFinite_iff.1 hs) he.2 (by omega) (by rwa [key_sub hh f2] at hnew)
        have hst : s.toInt = -(uval s.mag : Int) := by unfold toInt; rw [if_pos he.2]
        rw [hst, he.1] at this
        exact this
      · have hs2 : -(uval (Nat.max s.mag hd.mag - 1) : Int) ≤ s.toInt := by
          unfold toInt
          by_cases hn : s.neg = true
          · rw [if_pos hn]
            have : uval s.mag ≤ uval (Nat.max s.mag hd.mag - 1) := uval_le_iff.2 (by
              have : s.mag ≠ Nat.max s.mag hd.mag := fun h => he ⟨h, hn⟩
              omega)
            omega
          · rw [if_neg hn]; omega
        omega
    have hsl : -(uval (Nat.max s.mag hd.mag) : Int) ≤ s.toInt := by
      have := uval_le_iff.2 hsK
      rcases toInt_abs s with k | k <;> omega
    exact round_half scale_pos (half_grain hr) hK0 c (by omega) (by omega)

end GS
