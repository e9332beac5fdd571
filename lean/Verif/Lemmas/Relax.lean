/- Floating-point facts behind the threshold relaxation. -/
import Verif.F64.Round
import Mathlib.Tactic.Ring

namespace GS
open F64

theorem add_inf_right {x y : F64} (hx : x.isFinite = true) (hy : y.isInf = true) : x.add y = y := by
  have h1 := fin_not_nan hx
  have h2 := fin_not_inf hx
  have h3 : y.isNaN = false := by
    rcases class_cases y with h | h | h <;> simp_all
  simp [F64.add, h1, h2, h3, hy]

/-- Adding a non-negative number never decreases. -/
theorem le_add_of_nonneg {t g : F64} (ht : t.isFinite = true) (hg : g.isNaN = false)
    (h0 : 0 ≤ g.key) : F64.le t (t.add g) = true := by
  rcases class_cases g with h | h | h
  · simp [h.1] at hg
  · rw [add_inf_right ht h.2.1]
    rw [le_iff]
    refine ⟨fin_not_nan ht, hg, ?_⟩
    have h2 := isInf_iff.1 h.2.1
    have h1 := key_le_inf (fin_not_nan ht)
    have hpos : g.neg = false := by
      by_contra hc
      have hc' : g.neg = true := by simpa using hc
      unfold key at h0
      rw [if_pos hc', h2] at h0
      have : (0 : Int) < infMag := by decide
      omega
    have : g.key = infMag := by unfold key; rw [hpos, h2]; rfl
    omega
  · have hk := key_add ht h.2.2
    rw [le_iff]
    refine ⟨fin_not_nan ht, add_not_nan ht h.2.2, ?_⟩
    rw [hk]
    have h3 : 0 ≤ g.toInt := by
      have := @toInt_le_iff F64.zero g
      have hz : F64.zero.toInt = 0 := by decide
      have hz' : F64.zero.key = 0 := by decide
      omega
    exact le_rkey_of_le (by decide) (fin_not_nan ht) (by push_cast; omega)

theorem neg_false_of_key_pos {x : F64} (h : 0 < x.key) : x.neg = false := by
  by_contra hc
  have hc' : x.neg = true := by simpa using hc
  unfold key at h
  rw [if_pos hc'] at h
  omega

theorem mag_pos_of_key_pos {x : F64} (h : 0 < x.key) : 0 < x.mag := by
  have h1 := neg_false_of_key_pos h
  unfold key at h; rw [h1] at h
  have h : (0 : Int) < x.mag := h
  omega

/-- Product of positive numbers (possibly infinite) is not NaN and non-negative. -/
theorem mul_pos_ok {x y : F64} (hx : x.isNaN = false) (hy : y.isNaN = false)
    (px : 0 < x.key) (py : 0 < y.key) : (x.mul y).isNaN = false ∧ 0 ≤ (x.mul y).key := by
  have nx := neg_false_of_key_pos px
  have ny := neg_false_of_key_pos py
  have mx := mag_pos_of_key_pos px
  have my := mag_pos_of_key_pos py
  unfold F64.mul
  simp only [hx, hy, nx, ny, Bool.or_self, Bool.false_eq_true, if_false, bne_self_eq_false]
  split
  · rw [if_neg (by simp; omega)]
    refine ⟨mkRound_not_nan _ _, ?_⟩
    rw [key_mkRound]; simp
  · refine ⟨mkRound_not_nan _ _, ?_⟩
    rw [key_mkRound]; simp

theorem mul_inf_pos {x y : F64} (hx : x.isNaN = false) (hy : y.isNaN = false)
    (px : 0 < x.key) (py : 0 < y.key) (h : x.isInf = true ∨ y.isInf = true) :
    (x.mul y) = F64.inf := by
  have nx := neg_false_of_key_pos px
  have ny := neg_false_of_key_pos py
  have mx := mag_pos_of_key_pos px
  have my := mag_pos_of_key_pos py
  unfold F64.mul
  simp only [hx, hy, nx, ny, Bool.or_self, Bool.false_eq_true, if_false, bne_self_eq_false]
  rw [if_pos (by simpa using h), if_neg (by simp; omega)]
  decide

theorem one_toInt : F64.one.toInt = scale := by
  have h : F64.one.neg = false := rfl
  unfold toInt; rw [h]
  have : uval F64.one.mag = scale := by
    unfold scale
    have : F64.one.mag = 1022 * 2 ^ 52 + 2 ^ 52 := by decide
    rw [this, uval_mk 1022 (2 ^ 52) (Or.inr ⟨le_refl _, by decide⟩)]
    rw [← pow_add]
  rw [this]; rfl

theorem one_finite : F64.one.isFinite = true := by decide
theorem one_key_pos : 0 < F64.one.key := by decide

/-- `1 + |t|` is not NaN, at least one and at least `|t|`. -/
theorem one_add_abs {t : F64} (ht : t.isFinite = true) :
    (F64.one.add t.abs).isNaN = false ∧ F64.one.key ≤ (F64.one.add t.abs).key ∧
      t.abs.key ≤ (F64.one.add t.abs).key := by
  have ha : t.abs.isFinite = true := ht
  have h0 : 0 ≤ t.abs.toInt := by rw [abs_toInt]; exact abs_nonneg _
  have h1 : 0 ≤ F64.one.toInt := by rw [one_toInt]; omega
  refine ⟨add_not_nan one_finite ha, ?_, ?_⟩
  · rw [key_add one_finite ha]
    exact le_rkey_of_le (by decide) (fin_not_nan one_finite) (by push_cast; omega)
  · rw [key_add one_finite ha]
    exact le_rkey_of_le (by decide) (fin_not_nan ha) (by push_cast; omega)

/-- The relaxed threshold is never below the old one. -/
theorem relax_le {t f : F64} (ht : t.isFinite = true) (hf : F64.lt F64.zero f = true) :
    F64.le t (t.add (f.mul (F64.one.add t.abs))) = true := by
  obtain ⟨h1, h2, _⟩ := one_add_abs ht
  rw [lt_iff] at hf
  have hz : F64.zero.key = 0 := by decide
  rw [hz] at hf
  have hp : 0 < (F64.one.add t.abs).key := lt_of_lt_of_le one_key_pos h2
  obtain ⟨h3, h4⟩ := mul_pos_ok hf.2.1 h1 hf.2.2 hp
  exact le_add_of_nonneg ht h3 h4

/-- A power of two up to the largest gap is a double. -/
theorem exists_pow2 (k : Nat) (hk : k ≤ 2045) : ∃ x : F64, x.isFinite = true ∧ x.neg = false ∧
    x.toInt = (2 ^ k : Nat) := by
  by_cases h : k < 52
  · have h1 : 2 ^ k < 2 ^ 52 := Nat.pow_lt_pow_right (by decide) h
    have h2 : 2 ^ k < infMag := lt_trans h1 (by decide)
    refine ⟨⟨false, 2 ^ k, lt_trans h2 infMag_lt⟩, isFinite_iff.2 h2, rfl, ?_⟩
    unfold toInt; simp only [Bool.false_eq_true, if_false]
    rw [uval_small (lt_trans h1 (by decide))]
  · have h2 : (k - 52) * 2 ^ 52 + 2 ^ 52 < infMag := by unfold infMag; omega
    refine ⟨⟨false, (k - 52) * 2 ^ 52 + 2 ^ 52, lt_trans h2 infMag_lt⟩, isFinite_iff.2 h2, rfl, ?_⟩
    unfold toInt; simp only [Bool.false_eq_true, if_false]
    rw [uval_mk _ _ (Or.inr ⟨le_refl _, by decide⟩), ← pow_add]
    congr 2
    omega

/-- The gap is at most `2^-52` of the value, for normal numbers. -/
theorem gap_le (m : Nat) : 2 ^ 52 * gap m ≤ uval m ∨ gap m = 1 := by
  by_cases h : m < 2 ^ 53
  · have : gap m = 1 := by
      unfold gap
      have : m / 2 ^ 52 - 1 = 0 := by omega
      rw [this]; rfl
    exact Or.inr this
  · left
    unfold uval gap; rw [if_neg h]
    exact Nat.mul_le_mul_right _ (Nat.le_add_right _ _)

theorem gap_mono {a b : Nat} (h : a ≤ b) : gap a ≤ gap b := by
  unfold gap
  apply Nat.pow_le_pow_right (by decide)
  have := Nat.div_le_div_right (c := 2 ^ 52) h
  omega

/-- Adding at least one gap gives a strictly larger number. -/
theorem lt_add_of_gap {t g : F64} (ht : t.isFinite = true) (hg : g.isFinite = true)
    (h : (gap t.mag : Int) ≤ g.toInt) : t.key < (t.add g).key := by
  rw [key_add ht hg]
  have hm := isFinite_iff.1 ht
  by_cases hn : t.neg = true ∧ 0 < t.mag
  · obtain ⟨hneg, hpos⟩ := hn
    have hx : t.mag - 1 < 2 ^ 63 := by have := t.h; omega
    let x : F64 := ⟨true, t.mag - 1, hx⟩
    have hxn : x.isNaN = false := not_isNaN_iff.2 (show t.mag - 1 ≤ infMag by omega)
    have h1 : x.key ≤ rkey (t.toInt + g.toInt) 1 := by
      apply le_rkey_of_le (by decide) hxn
      have e1 : x.toInt = -(uval (t.mag - 1) : Int) := rfl
      have e2 : t.toInt = -(uval t.mag : Int) := by unfold toInt; rw [if_pos hneg]
      have e3 := uval_succ (t.mag - 1)
      have e4 : t.mag - 1 + 1 = t.mag := by omega
      rw [e4] at e3
      have e5 : gap (t.mag - 1) ≤ gap t.mag := gap_mono (by omega)
      rw [e1, e2]
      push_cast
      omega
    have h2 : t.key < x.key := by
      have e1 : x.key = -((t.mag - 1 : Nat) : Int) := rfl
      have e2 : t.key = -(t.mag : Int) := by unfold key; rw [if_pos hneg]
      omega
    omega
  · have hx : t.mag + 1 < 2 ^ 63 := by
      have : infMag < 2 ^ 63 := infMag_lt
      omega
    let x : F64 := ⟨false, t.mag + 1, hx⟩
    have hxn : x.isNaN = false := not_isNaN_iff.2 (show t.mag + 1 ≤ infMag by omega)
    have e2 : t.toInt = (uval t.mag : Int) ∧ t.key = (t.mag : Int) := by
      unfold toInt key
      cases hh : t.neg
      · exact ⟨rfl, rfl⟩
      · have : t.mag = 0 := by
          by_contra hc
          exact hn ⟨hh, by omega⟩
        simp [this]
    have h1 : x.key ≤ rkey (t.toInt + g.toInt) 1 := by
      apply le_rkey_of_le (by decide) hxn
      have e1 : x.toInt = (uval (t.mag + 1) : Int) := rfl
      have e3 := uval_succ t.mag
      rw [e1, e2.1]
      push_cast
      omega
    have h2 : t.key < x.key := by
      have e1 : x.key = ((t.mag + 1 : Nat) : Int) := rfl
      omega
    omega

theorem eps_toInt : (F64.lit 1 (2 ^ 52)).toInt * 2 ^ 52 = scale := by
  have h : F64.lit 1 (2 ^ 52) = ⟨false, 971 * 2 ^ 52, by decide⟩ := by decide +kernel
  have hu : uval (971 * 2 ^ 52) = 2 ^ 1022 := by
    have : 971 * 2 ^ 52 = 970 * 2 ^ 52 + 2 ^ 52 := by decide
    rw [this, uval_mk 970 (2 ^ 52) (Or.inr ⟨le_refl _, by decide⟩), ← pow_add]
  rw [h]
  unfold toInt
  simp only [Bool.false_eq_true, if_false]
  rw [hu]
  unfold scale
  rw [show (1074 : Nat) = 1022 + 52 from rfl, pow_add]
  push_cast
  rfl

/-- The relaxed threshold is strictly larger for factors of at least `f64::EPSILON`. -/
theorem relax_lt {t f : F64} (ht : t.isFinite = true)
    (hf : F64.le (F64.lit 1 (2 ^ 52)) f = true) :
    F64.lt t (t.add (f.mul (F64.one.add t.abs))) = true := by
  obtain ⟨h1, h2, h3⟩ := one_add_abs ht
  rw [le_iff] at hf
  have hek : 0 < (F64.lit 1 (2 ^ 52)).key := by decide +kernel
  have hfp : 0 < f.key := lt_of_lt_of_le hek hf.2.2
  have hp : 0 < (F64.one.add t.abs).key := lt_of_lt_of_le one_key_pos h2
  have hinf : ∀ g : F64, g = F64.inf → F64.lt t (t.add g) = true := by
    intro g hg
    rw [hg, add_inf_right ht (by decide), lt_iff]
    refine ⟨fin_not_nan ht, by decide, ?_⟩
    have hm := isFinite_iff.1 ht
    have : F64.inf.key = infMag := rfl
    rw [this]; unfold key; split <;> omega
  set s := F64.one.add t.abs with hs
  rcases class_cases f with hc | hc | hc
  · simp [hc.1] at hf
  · exact hinf _ (mul_inf_pos hf.2.1 h1 hfp hp (Or.inl hc.2.1))
  rcases class_cases s with hd | hd | hd
  · simp [hd.1] at h1
  · exact hinf _ (mul_inf_pos hf.2.1 h1 hfp hp (Or.inr hd.2.1))
  have hff := hc.2.2
  have hsf := hd.2.2
  have hgk := key_mul hff hsf
  obtain ⟨hgn, hg0⟩ := mul_pos_ok hf.2.1 h1 hfp hp
  rcases class_cases (f.mul s) with hg | hg | hg
  · simp [hg.1] at hgn
  · have : f.mul s = F64.inf := by
      have hm := isInf_iff.1 hg.2.1
      have hneg : (f.mul s).neg = false := by
        by_contra hcc
        have hcc' : (f.mul s).neg = true := by simpa using hcc
        unfold key at hg0
        rw [if_pos hcc', hm] at hg0
        have : (0 : Int) < infMag := by decide
        omega
      exact ext' hneg hm
    exact hinf _ this
  · rw [lt_iff]
    refine ⟨fin_not_nan ht, add_not_nan ht hg.2.2, lt_add_of_gap ht hg.2.2 ?_⟩
    have hm := isFinite_iff.1 ht
    obtain ⟨G, hGf, _, hGt⟩ := exists_pow2 (t.mag / 2 ^ 52 - 1) (by unfold infMag at hm; omega)
    have hGg : G.toInt = (gap t.mag : Int) := by rw [hGt]; rfl
    rw [← hGg, toInt_le_iff, hgk]
    apply le_rkey_of_le scale_pos (fin_not_nan hGf)
    rw [hGg]
    have a1 : (F64.lit 1 (2 ^ 52)).toInt ≤ f.toInt := toInt_le_iff.2 hf.2.2
    have a2 : (2 ^ 52 * gap t.mag : Int) ≤ s.toInt := by
      have b1 : F64.one.toInt ≤ s.toInt := toInt_le_iff.2 h2
      have b2 : t.abs.toInt ≤ s.toInt := toInt_le_iff.2 h3
      have b3 : t.abs.toInt = (uval t.mag : Int) := rfl
      have b4 := gap_le t.mag
      have b5 : (2 ^ 52 : Int) ≤ F64.one.toInt := by
        rw [one_toInt]
        have : 2 ^ 52 ≤ scale := by unfold scale; exact Nat.pow_le_pow_right (by decide) (by decide)
        exact_mod_cast this
      rcases b4 with b4 | b4
      · have : ((2 ^ 52 * gap t.mag : Nat) : Int) ≤ (uval t.mag : Int) := by exact_mod_cast b4
        push_cast at this
        omega
      · rw [b4]
        push_cast
        omega
    have e0 := eps_toInt
    have e1 : 0 ≤ (F64.lit 1 (2 ^ 52)).toInt := by
      have := @toInt_le_iff F64.zero (F64.lit 1 (2 ^ 52))
      have hz : F64.zero.toInt = 0 := by decide
      have hz' : F64.zero.key = 0 := by decide
      omega
    have e2 : (0 : Int) ≤ gap t.mag := by omega
    calc (scale : Int) * (gap t.mag : Int)
        = (F64.lit 1 (2 ^ 52)).toInt * (2 ^ 52 * gap t.mag) := by rw [← e0]; ring
      _ ≤ f.toInt * s.toInt := Int.mul_le_mul a1 a2 (by omega) (by omega)

end GS
