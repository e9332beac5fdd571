/- C108: trial points are the documented combinations of two reference points in exact arithmetic, up to rounding. -/
import Verif.Lemmas.Approx
import Verif.Props.Scatter
import Verif.Props.Diversify
import Mathlib.Tactic.IntervalCases

namespace GS.Props
open GS GS.F64
variable {n : Nat}

/-! ### Specification -/

/-- The number between `lo` and `hi` nearest to `v`. -/
def proj (lo hi v : ℚ) : ℚ := max lo (min hi v)

/-- The weights of the first reference point. -/
def weights : List ℚ := [1 / 4, 1 / 2, 3 / 4, 5 / 4]

/-- Coordinate `i` of `x` is `alpha a + (1 - alpha) b` moved into the bounds, up to rounding. -/
def LinearAt (p : Problem n) (a b x : Pt n) (alpha : ℚ) (i : Fin n) : Prop :=
  |realVal (x i) - proj (realVal (p.lower i)) (realVal (p.upper i))
    (alpha * realVal (a i) + (1 - alpha) * realVal (b i))| ≤
    (|realVal (a i)| + |realVal (b i)|) / 2 ^ 51 + 1 / 2 ^ 1073

/-- Coordinate `i` of `x` is the middle of `a` and `b` plus at most a tenth of the range of the variable, moved into
the bounds, up to rounding. -/
def MiddleAt (p : Problem n) (a b x : Pt n) (i : Fin n) : Prop :=
  ∃ t : ℚ, |t| ≤ 1 / 10 ∧
  |realVal (x i) - proj (realVal (p.lower i)) (realVal (p.upper i))
    ((realVal (a i) + realVal (b i)) / 2 + t * (realVal (p.upper i) - realVal (p.lower i)))| ≤
    (|realVal (p.lower i)| + |realVal (p.upper i)|) / 2 ^ 50 + 1 / 2 ^ 1073

/-- The six combinations of `a` and `b`. -/
def Combines (p : Problem n) (a b : Pt n) (l : List (Pt n)) : Prop :=
  l.length = 6 ∧
  (∀ (k : Nat) alpha x, weights[k]? = some alpha → l[k]? = some x → ∀ i, LinearAt p a b x alpha i) ∧
  ∀ (k : Nat) x, 4 ≤ k → l[k]? = some x → ∀ i, MiddleAt p a b x i

/-- Finite, ordered bounds of magnitude at most `2^1022`. -/
structure Moderate (p : Problem n) : Prop where
  lower : ∀ i, (p.lower i).isFinite = true ∧ |realVal (p.lower i)| ≤ 2 ^ 1022
  upper : ∀ i, (p.upper i).isFinite = true ∧ |realVal (p.upper i)| ≤ 2 ^ 1022
  ordered : ∀ i, F64.le (p.lower i) (p.upper i) = true

/-! ### Proofs -/

theorem two_half_top : (2 : ℚ) ^ 1022 = top / 2 := by
  unfold top
  rw [show (2 : ℚ) ^ 1023 = 2 * 2 ^ 1022 by rw [← pow_succ']]
  ring

theorem eta_four : (1 : ℚ) / 2 ^ 1073 = 4 * eta := by
  unfold eta
  rw [show (2 : ℚ) ^ 1075 = 4 * 2 ^ 1073 by
    rw [show (4 : ℚ) = 2 ^ 2 by norm_num, ← pow_add]]
  have : (2 : ℚ) ^ 1073 ≠ 0 := pow_ne_zero _ (by norm_num)
  generalize (2 : ℚ) ^ 1073 = c at *
  field_simp

theorem eta_le : eta ≤ 1 / 100 := by
  unfold eta
  have : (2 : ℚ) ^ 7 ≤ 2 ^ 1075 := pow_le_pow_right₀ (by norm_num) (by norm_num)
  have h7 : (100 : ℚ) ≤ 2 ^ 7 := by norm_num
  exact one_div_le_one_div_of_le (by norm_num) (h7.trans this)

theorem proj_lipschitz (lo hi u v : ℚ) : |proj lo hi u - proj lo hi v| ≤ |u - v| := by
  unfold proj
  rcases max_cases lo (min hi u) with ⟨e1, h1⟩ | ⟨e1, h1⟩ <;>
  rcases max_cases lo (min hi v) with ⟨e2, h2⟩ | ⟨e2, h2⟩ <;>
  rcases min_cases hi u with ⟨e3, h3⟩ | ⟨e3, h3⟩ <;>
  rcases min_cases hi v with ⟨e4, h4⟩ | ⟨e4, h4⟩ <;>
  rw [e1, e2] <;> (try rw [e3]) <;> (try rw [e4]) <;> rw [e3] at h1 <;> rw [e4] at h2 <;>
  rcases abs_cases (u - v) with ⟨e5, h5⟩ | ⟨e5, h5⟩ <;> rw [e5, abs_le] <;> constructor <;> linarith

theorem lt_iff_val {x y : F64} (hx : x.isFinite = true) (hy : y.isFinite = true) :
    F64.lt x y = true ↔ realVal x < realVal y := by
  have h := le_iff_val hy hx
  rw [← not_le, ← h]
  constructor
  · intro hl hc
    rw [le_iff] at hc
    rw [lt_iff] at hl
    omega
  · intro hc
    by_contra hl
    exact hc (le_of_not_lt (fin_not_nan hx) (fin_not_nan hy) (by simpa using hl))

/-- `clamp` of a finite double. -/
theorem clamp_val {x lo hi y : F64} (hx : x.isFinite = true) (hl : lo.isFinite = true) (hh : hi.isFinite = true)
    (h : x.clamp lo hi = some y) : realVal y = proj (realVal lo) (realVal hi) (realVal x) := by
  unfold F64.clamp at h
  split at h
  · rename_i hlh
    have hlh' := (le_iff_val hl hh).1 hlh
    injection h with h
    subst h
    unfold proj
    by_cases h1 : F64.lt x lo = true
    · rw [if_pos h1]
      have h1' := (lt_iff_val hx hl).1 h1
      have h2 : ¬ F64.lt hi lo = true := fun hc => by
        have := (lt_iff_val hh hl).1 hc; linarith
      rw [if_neg h2, max_eq_left (by rw [min_eq_right (by linarith)]; exact h1'.le)]
    · rw [if_neg h1]
      have h1' := not_lt.1 fun hc => h1 ((lt_iff_val hx hl).2 hc)
      by_cases h2 : F64.lt hi x = true
      · rw [if_pos h2]
        have h2' := (lt_iff_val hh hx).1 h2
        rw [min_eq_left h2'.le, max_eq_right hlh']
      · rw [if_neg h2]
        have h2' := not_lt.1 fun hc => h2 ((lt_iff_val hh hx).2 hc)
        rw [min_eq_right h2', max_eq_right h1']
  · cases h

theorem uro_num : uro = 1 / 9007199254740992 := by unfold uro; norm_num

/-- `a * alpha + b * beta` for finite numbers of moderate size. -/
theorem lincomb_val {x y al be : F64} {A B : ℚ} (hx : x.isFinite = true) (hy : y.isFinite = true)
    (hal : al.isFinite = true) (hbe : be.isFinite = true) (ha : realVal al = A) (hb : realVal be = B)
    (hA : |A| ≤ 5 / 4) (hB : |B| ≤ 3 / 4) (hs : |A| + |B| ≤ 3 / 2)
    (hxb : |realVal x| ≤ top / 2) (hyb : |realVal y| ≤ top / 2) :
    ((x.mul al).add (y.mul be)).isFinite = true ∧
    |realVal ((x.mul al).add (y.mul be)) - (A * realVal x + B * realVal y)| ≤
      4 * uro * (|realVal x| + |realVal y|) + 4 * eta := by
  have ht := one_le_top
  have he := eta_le
  have hep := eta_pos
  have hX := abs_nonneg (realVal x)
  have hY := abs_nonneg (realVal y)
  have hA0 := abs_nonneg A
  have hB0 := abs_nonneg B
  have e1 : |realVal x * realVal al| = |A| * |realVal x| := by rw [ha, abs_mul, mul_comm]
  have e2 : |realVal y * realVal be| = |B| * |realVal y| := by rw [hb, abs_mul, mul_comm]
  have b1 : |A| * |realVal x| ≤ |A| * (top / 2) := mul_le_mul_of_nonneg_left hxb hA0
  have b2 : |B| * |realVal y| ≤ |B| * (top / 2) := mul_le_mul_of_nonneg_left hyb hB0
  have b3 : |A| * (top / 2) + |B| * (top / 2) ≤ 3 / 2 * (top / 2) := by
    rw [← add_mul]; exact mul_le_mul_of_nonneg_right hs (by linarith)
  have p1n : 0 ≤ |A| * |realVal x| := mul_nonneg hA0 hX
  have p2n : 0 ≤ |B| * |realVal y| := mul_nonneg hB0 hY
  obtain ⟨f1, m1⟩ := mul_approx hx hal (by rw [e1]; linarith)
  obtain ⟨f2, m2⟩ := mul_approx hy hbe (by rw [e2]; linarith)
  rw [e1] at m1
  rw [e2] at m2
  have c1 : |A| * |realVal x| ≤ 5 / 4 * |realVal x| := mul_le_mul_of_nonneg_right hA hX
  have c2 : |B| * |realVal y| ≤ 3 / 4 * |realVal y| := mul_le_mul_of_nonneg_right hB hY
  have e3 : |realVal x * realVal al + realVal y * realVal be| ≤ |A| * |realVal x| + |B| * |realVal y| := by
    rw [← e1, ← e2]; exact abs_add_le _ _
  have hval : A * realVal x + B * realVal y = realVal x * realVal al + realVal y * realVal be := by
    rw [ha, hb]; ring
  rw [hval]
  have hP : |realVal x * realVal al| ≤ |A| * |realVal x| := e1.le
  have hQ : |realVal y * realVal be| ≤ |B| * |realVal y| := e2.le
  generalize realVal x * realVal al = P at *
  generalize realVal y * realVal be = Q at *
  generalize |A| * |realVal x| = a at *
  generalize |B| * |realVal y| = b at *
  rw [uro_num] at *
  have hpq : |realVal (x.mul al) + realVal (y.mul be)| ≤
      (1 + 1 / 9007199254740992) * (a + b) + 2 * eta := by
    have h1 := abs_add_le (realVal (x.mul al) - P) P
    have h2 := abs_add_le (realVal (y.mul be) - Q) Q
    have h3 := abs_add_le (realVal (x.mul al)) (realVal (y.mul be))
    rw [sub_add_cancel] at h1 h2
    linarith
  obtain ⟨f3, m3⟩ := add_approx f1 f2 (by linarith)
  refine ⟨f3, ?_⟩
  rw [uro_num] at m3
  have h4 : realVal ((x.mul al).add (y.mul be)) - (P + Q) =
      (realVal ((x.mul al).add (y.mul be)) - (realVal (x.mul al) + realVal (y.mul be))) +
      ((realVal (x.mul al) - P) + (realVal (y.mul be) - Q)) := by ring
  rw [h4]
  refine (abs_add_le _ _).trans ?_
  have h5 := abs_add_le (realVal (x.mul al) - P) (realVal (y.mul be) - Q)
  linarith

theorem mem_between {x lo hi : ℚ} (h1 : lo ≤ x) (h2 : x ≤ hi) {M : ℚ} (hl : |lo| ≤ M) (hh : |hi| ≤ M) :
    |x| ≤ M := by
  rw [abs_le] at *
  constructor <;> linarith

/-- The middle of two points plus a random part of the range. -/
theorem middle_val {x y lo hi u : F64} (hx : x.isFinite = true) (hy : y.isFinite = true)
    (hl : lo.isFinite = true) (hh : hi.isFinite = true) (hu : u.isFinite = true)
    (hx1 : realVal lo ≤ realVal x) (hx2 : realVal x ≤ realVal hi)
    (hy1 : realVal lo ≤ realVal y) (hy2 : realVal y ≤ realVal hi)
    (hlb : |realVal lo| ≤ top / 2) (hhb : |realVal hi| ≤ top / 2)
    (hub : |realVal u| ≤ 1 / 10 + uro) :
    (((x.add y).div F64.two).add (u.mul (hi.sub lo))).isFinite = true ∧
    ∃ t : ℚ, |t| ≤ 1 / 10 ∧
    |realVal (((x.add y).div F64.two).add (u.mul (hi.sub lo))) -
      ((realVal x + realVal y) / 2 + t * (realVal hi - realVal lo))| ≤
      8 * uro * (|realVal lo| + |realVal hi|) + 4 * eta := by
  have ht := one_le_top
  have he := eta_le
  have hep := eta_pos
  have two_f : F64.two.isFinite = true := by decide
  have two_v : realVal F64.two = 2 := by
    unfold realVal
    have h : F64.two.toInt = 2 * 2 ^ 1074 := by decide +kernel
    rw [h]
    push_cast
    have : (2 : ℚ) ^ 1074 ≠ 0 := pow_ne_zero _ (by norm_num)
    generalize (2 : ℚ) ^ 1074 = c at *
    field_simp
  have two_m : F64.two.mag ≠ 0 := by decide
  -- sizes
  generalize hW : |realVal lo| + |realVal hi| = W
  have hl0 := abs_nonneg (realVal lo)
  have hh0 := abs_nonneg (realVal hi)
  have hlW : |realVal lo| ≤ W := by linarith
  have hhW : |realVal hi| ≤ W := by linarith
  have hxW := mem_between hx1 hx2 hlW hhW
  have hyW := mem_between hy1 hy2 hlW hhW
  have hxT := mem_between hx1 hx2 hlb hhb
  have hyT := mem_between hy1 hy2 hlb hhb
  have hWT : W ≤ top := by linarith
  have hr : |realVal hi - realVal lo| ≤ W := by
    have := abs_sub (realVal hi) (realVal lo)
    linarith
  have hsum := abs_add_le (realVal x) (realVal y)
  rw [uro_num] at *
  -- sum
  obtain ⟨f1, m1⟩ := add_approx hx hy (by linarith)
  rw [uro_num] at m1
  have n1 : |realVal (x.add y)| ≤ (1 + 1 / 9007199254740992) * |realVal x + realVal y| := by
    have := abs_add_le (realVal (x.add y) - (realVal x + realVal y)) (realVal x + realVal y)
    rw [sub_add_cancel] at this
    linarith
  -- halved
  have e2 : |realVal (x.add y) / realVal F64.two| = |realVal (x.add y)| / 2 := by
    rw [two_v, abs_div]; norm_num
  obtain ⟨f2, m2⟩ := div_approx f1 two_f two_m (by rw [e2]; linarith)
  rw [uro_num, e2, two_v] at m2
  -- range
  obtain ⟨f3, m3⟩ := sub_approx hh hl (by linarith)
  rw [uro_num] at m3
  have n3 : |realVal (hi.sub lo)| ≤ (1 + 1 / 9007199254740992) * W := by
    have := abs_add_le (realVal (hi.sub lo) - (realVal hi - realVal lo)) (realVal hi - realVal lo)
    rw [sub_add_cancel] at this
    linarith
  -- random part
  have n4 : |realVal u * realVal (hi.sub lo)| ≤ 11 / 100 * W := by
    rw [abs_mul]
    have h1 : |realVal u| * |realVal (hi.sub lo)| ≤
        (1 / 10 + 1 / 9007199254740992) * ((1 + 1 / 9007199254740992) * W) :=
      mul_le_mul hub n3 (abs_nonneg _) (by norm_num)
    linarith
  obtain ⟨f4, m4⟩ := mul_approx hu f3 (by linarith)
  rw [uro_num] at m4
  have n5 : |realVal (u.mul (hi.sub lo))| ≤ 12 / 100 * W + eta := by
    have := abs_add_le (realVal (u.mul (hi.sub lo)) - realVal u * realVal (hi.sub lo))
      (realVal u * realVal (hi.sub lo))
    rw [sub_add_cancel] at this
    linarith
  have n6 : |realVal ((x.add y).div F64.two)| ≤
      (1 + 1 / 9007199254740992) * ((1 + 1 / 9007199254740992) * |realVal x + realVal y| / 2) + eta := by
    have := abs_add_le (realVal ((x.add y).div F64.two) - realVal (x.add y) / 2) (realVal (x.add y) / 2)
    rw [sub_add_cancel, abs_div, abs_of_pos (by norm_num : (0 : ℚ) < 2)] at this
    linarith
  have n7 := abs_add_le (realVal ((x.add y).div F64.two)) (realVal (u.mul (hi.sub lo)))
  obtain ⟨f5, m5⟩ := add_approx f2 f4 (by linarith)
  rw [uro_num] at m5
  refine ⟨f5, max (-(1 / 10)) (min (1 / 10) (realVal u)), ?_, ?_⟩
  · rw [abs_le]
    exact ⟨le_max_left _ _, max_le (by norm_num) (min_le_left _ _)⟩
  · have hd : |realVal u - max (-(1 / 10)) (min (1 / 10) (realVal u))| ≤ 1 / 9007199254740992 := by
      rw [abs_le] at hub ⊢
      rcases max_cases (-(1 / 10)) (min (1 / 10) (realVal u)) with ⟨g1, g2⟩ | ⟨g1, g2⟩ <;>
      rcases min_cases (1 / 10) (realVal u) with ⟨g3, g4⟩ | ⟨g3, g4⟩ <;> rw [g1] <;>
      (try rw [g3]) <;> rw [g3] at g2 <;> constructor <;> linarith
    generalize max (-(1 / 10)) (min (1 / 10) (realVal u)) = t at *
    have r1 : |realVal u * (realVal (hi.sub lo) - (realVal hi - realVal lo))| ≤
        11 / 100 * (1 / 9007199254740992 * W) := by
      rw [abs_mul]
      have : |realVal u| * |realVal (hi.sub lo) - (realVal hi - realVal lo)| ≤
          (1 / 10 + 1 / 9007199254740992) * (1 / 9007199254740992 * W) :=
        mul_le_mul hub (by linarith) (abs_nonneg _) (by norm_num)
      linarith
    have r2 : |(realVal u - t) * (realVal hi - realVal lo)| ≤ 1 / 9007199254740992 * W := by
      rw [abs_mul]
      exact mul_le_mul hd hr (abs_nonneg _) (by norm_num)
    have hv : realVal (((x.add y).div F64.two).add (u.mul (hi.sub lo))) -
        ((realVal x + realVal y) / 2 + t * (realVal hi - realVal lo)) =
        (realVal (((x.add y).div F64.two).add (u.mul (hi.sub lo))) -
          (realVal ((x.add y).div F64.two) + realVal (u.mul (hi.sub lo)))) +
        (((realVal ((x.add y).div F64.two) - realVal (x.add y) / 2) +
          (realVal (x.add y) - (realVal x + realVal y)) / 2) +
        ((realVal (u.mul (hi.sub lo)) - realVal u * realVal (hi.sub lo)) +
          (realVal u * (realVal (hi.sub lo) - (realVal hi - realVal lo)) +
            (realVal u - t) * (realVal hi - realVal lo)))) := by ring
    rw [hv]
    have s1 := abs_add_le (realVal (((x.add y).div F64.two).add (u.mul (hi.sub lo))) -
          (realVal ((x.add y).div F64.two) + realVal (u.mul (hi.sub lo)))) (((realVal ((x.add y).div F64.two) - realVal (x.add y) / 2) +
          (realVal (x.add y) - (realVal x + realVal y)) / 2) +
        ((realVal (u.mul (hi.sub lo)) - realVal u * realVal (hi.sub lo)) +
          (realVal u * (realVal (hi.sub lo) - (realVal hi - realVal lo)) +
            (realVal u - t) * (realVal hi - realVal lo))))
    have s2 := abs_add_le ((realVal ((x.add y).div F64.two) - realVal (x.add y) / 2) +
          (realVal (x.add y) - (realVal x + realVal y)) / 2)
        ((realVal (u.mul (hi.sub lo)) - realVal u * realVal (hi.sub lo)) +
          (realVal u * (realVal (hi.sub lo) - (realVal hi - realVal lo)) +
            (realVal u - t) * (realVal hi - realVal lo)))
    have s3 := abs_add_le (realVal ((x.add y).div F64.two) - realVal (x.add y) / 2)
          ((realVal (x.add y) - (realVal x + realVal y)) / 2)
    have s4 := abs_add_le (realVal (u.mul (hi.sub lo)) - realVal u * realVal (hi.sub lo))
          (realVal u * (realVal (hi.sub lo) - (realVal hi - realVal lo)) +
            (realVal u - t) * (realVal hi - realVal lo))
    have s5 := abs_add_le (realVal u * (realVal (hi.sub lo) - (realVal hi - realVal lo)))
            ((realVal u - t) * (realVal hi - realVal lo))
    have s6 : |(realVal (x.add y) - (realVal x + realVal y)) / 2| =
        |realVal (x.add y) - (realVal x + realVal y)| / 2 := by
      rw [abs_div, abs_of_pos (by norm_num : (0 : ℚ) < 2)]
    linarith

theorem realVal_of {x : F64} {p : Int} {q : Nat} (hq : 0 < q) (h : (q : Int) * x.toInt = p * 2 ^ 1074) :
    realVal x = p / q := by
  have h' : (q : ℚ) * (x.toInt : ℚ) = p * 2 ^ 1074 := by exact_mod_cast congrArg (Int.cast (R := ℚ)) h
  have hq' : (0 : ℚ) < q := by exact_mod_cast hq
  have : (2 : ℚ) ^ 1074 ≠ 0 := pow_ne_zero _ (by norm_num)
  unfold realVal
  generalize (2 : ℚ) ^ 1074 = c at *
  field_simp
  linarith

/-- The constants of the code and their complements. -/
theorem directions_val {k : Nat} {al : F64} (h : Scatter.directions[k]? = some al) : ∃ A : ℚ,
    weights[k]? = some A ∧ al.isFinite = true ∧ (F64.one.sub al).isFinite = true ∧ realVal al = A ∧
    realVal (F64.one.sub al) = 1 - A ∧ |A| ≤ 5 / 4 ∧ |1 - A| ≤ 3 / 4 ∧ |A| + |1 - A| ≤ 3 / 2 := by
  unfold Scatter.directions at h
  have hc : ∀ (p q : Nat) (r : Int), 0 < q → ((q : Int) * (F64.lit p q).toInt = p * 2 ^ 1074) →
      ((q : Int) * (F64.one.sub (F64.lit p q)).toInt = r * 2 ^ 1074) →
      realVal (F64.lit p q) = p / q ∧ realVal (F64.one.sub (F64.lit p q)) = r / q := fun p q r hq h1 h2 =>
    ⟨by simpa using realVal_of hq h1, realVal_of hq h2⟩
  have hk : k < 4 := (List.getElem?_eq_some_iff.1 h).1
  interval_cases k
  · obtain rfl : F64.lit 1 4 = al := Option.some.inj h
    obtain ⟨h1, h2⟩ := hc 1 4 3 (by norm_num) (by decide +kernel) (by decide +kernel)
    refine ⟨1 / 4, rfl, by decide +kernel, by decide +kernel, by rw [h1]; norm_num, by rw [h2]; norm_num, ?_, ?_, ?_⟩ <;>
      norm_num [abs_of_nonneg]
  · obtain rfl : F64.lit 1 2 = al := Option.some.inj h
    obtain ⟨h1, h2⟩ := hc 1 2 1 (by norm_num) (by decide +kernel) (by decide +kernel)
    refine ⟨1 / 2, rfl, by decide +kernel, by decide +kernel, by rw [h1]; norm_num, by rw [h2]; norm_num, ?_, ?_, ?_⟩ <;>
      norm_num [abs_of_nonneg]
  · obtain rfl : F64.lit 3 4 = al := Option.some.inj h
    obtain ⟨h1, h2⟩ := hc 3 4 1 (by norm_num) (by decide +kernel) (by decide +kernel)
    refine ⟨3 / 4, rfl, by decide +kernel, by decide +kernel, by rw [h1]; norm_num, by rw [h2]; norm_num, ?_, ?_, ?_⟩ <;>
      norm_num [abs_of_nonneg]
  · obtain rfl : F64.lit 5 4 = al := Option.some.inj h
    obtain ⟨h1, h2⟩ := hc 5 4 (-1) (by norm_num) (by decide +kernel) (by decide +kernel)
    refine ⟨5 / 4, rfl, by decide +kernel, by decide +kernel, by rw [h1]; norm_num, by rw [h2]; norm_num, ?_, ?_, ?_⟩ <;>
      norm_num [abs_of_nonneg, abs_of_nonpos]

theorem tenth_val : realVal (F64.lit 1 10) ≤ 1 / 10 + uro ∧ 0 ≤ realVal (F64.lit 1 10) := by
  have h : 10 * 2 ^ 53 * (F64.lit 1 10).toInt ≤ (2 ^ 53 + 10) * 2 ^ 1074 ∧ 0 ≤ (F64.lit 1 10).toInt := by
    decide +kernel
  have h1 : (10 : ℚ) * 2 ^ 53 * ((F64.lit 1 10).toInt : ℚ) ≤ (2 ^ 53 + 10) * 2 ^ 1074 := by exact_mod_cast h.1
  have h2 : (0 : ℚ) ≤ ((F64.lit 1 10).toInt : ℚ) := by exact_mod_cast h.2
  have hc : (0 : ℚ) < 2 ^ 1074 := pow_pos (by norm_num) _
  unfold realVal uro
  generalize (2 : ℚ) ^ 1074 = c at *
  refine ⟨?_, div_nonneg h2 hc.le⟩
  rw [div_le_iff₀ hc]
  norm_num at h1 ⊢
  linarith

theorem abs_of_tenth {u : F64} (h1 : F64.le (F64.lit 1 10).fneg u = true) (h2 : F64.lt u (F64.lit 1 10) = true) :
    u.isFinite = true ∧ |realVal u| ≤ 1 / 10 + uro := by
  have hf : (F64.lit 1 10).isFinite = true := by decide +kernel
  have hfn : (F64.lit 1 10).fneg.isFinite = true := hf
  have hu : u.isFinite = true := finite_of_between hfn hf h1 (le_of_lt' h2)
  refine ⟨hu, ?_⟩
  have a1 := (le_iff_val hfn hu).1 h1
  have a2 := (lt_iff_val hu hf).1 h2
  have e : realVal (F64.lit 1 10).fneg = -realVal (F64.lit 1 10) := by
    have := sv_fneg (F64.lit 1 10)
    unfold sv at this
    unfold realVal
    rw [this, neg_div]
  have := tenth_val.1
  rw [e] at a1
  rw [abs_le]
  constructor <;> linarith

/-- C108 (partial: bounds of magnitude at most `2^1022`, see `C108_overflow_violated`): `combine_points` returns the
six combinations, the random numbers being whatever they are. -/
theorem C108_combine_partial (rt : Rt n) (hv : rt.Valid) (p : Problem n) (hp : Moderate p) (a b : Pt n)
    (ha : inBounds p a) (hb : inBounds p b) (seed : Nat) (l : List (Pt n))
    (h : Scatter.combine rt p a b seed = some l) : Combines p a b l := by
  have hall := optAll_some h
  have hlen := (Scatter.combine_ok h).1
  have hfin : ∀ {x : Pt n}, inBounds p x → ∀ i, (x i).isFinite = true ∧ realVal (p.lower i) ≤ realVal (x i) ∧
      realVal (x i) ≤ realVal (p.upper i) ∧ |realVal (x i)| ≤ top / 2 := by
    intro x hx i
    have hf := finite_of_between (hp.lower i).1 (hp.upper i).1 (hx i).1 (hx i).2
    have h1 := (le_iff_val (hp.lower i).1 hf).1 (hx i).1
    have h2 := (le_iff_val hf (hp.upper i).1).1 (hx i).2
    refine ⟨hf, h1, h2, ?_⟩
    rw [← two_half_top]
    exact mem_between h1 h2 (hp.lower i).2 (hp.upper i).2
  have hget : ∀ (k : Nat) x, l[k]? = some x → (Scatter.directions.map (fun alpha => Scatter.applyBounds p (Scatter.lincomb a b alpha)) ++
      [0, 1].map fun r => (Scatter.perturb rt p a b seed r).bind (Scatter.applyBounds p))[k]? = some (some x) := by
    intro k x hx
    rw [hall, List.getElem?_map, hx]; rfl
  refine ⟨hlen, fun k alpha x hk hx i => ?_, fun k x hk hx i => ?_⟩
  · have hk4 : k < 4 := (List.getElem?_eq_some_iff.1 hk).1
    obtain ⟨al, hal⟩ : ∃ al, Scatter.directions[k]? = some al :=
      ⟨_, List.getElem?_eq_getElem (show k < Scatter.directions.length from hk4)⟩
    obtain ⟨A, hA, f1, f2, v1, v2, b1, b2, b3⟩ := directions_val hal
    rw [hk] at hA
    cases hA
    have hx' := hget k x hx
    rw [List.getElem?_append_left (by simpa [Scatter.directions] using hk4), List.getElem?_map, hal] at hx'
    injection hx' with hx'
    have hy := seqPt_some hx' i
    obtain ⟨fa, _, _, ba⟩ := hfin ha i
    obtain ⟨fb, _, _, bb⟩ := hfin hb i
    obtain ⟨fl, he⟩ := lincomb_val fa fb f1 f2 v1 v2 b1 b2 b3 ba bb
    have hc := clamp_val fl (hp.lower i).1 (hp.upper i).1 hy
    unfold LinearAt
    rw [hc, eta_four]
    refine (proj_lipschitz _ _ _ _).trans (he.trans (le_of_eq ?_))
    rw [uro_num]
    norm_num
    ring
  · have hk6 : k < 6 := by rw [← hlen]; exact (List.getElem?_eq_some_iff.1 hx).1
    have hx' := hget k x hx
    rw [List.getElem?_append_right (by simpa [Scatter.directions] using hk), List.getElem?_map] at hx'
    have hr : ∃ r, ([0, 1] : List Nat)[k - (Scatter.directions.map
        (fun alpha => Scatter.applyBounds p (Scatter.lincomb a b alpha))).length]? = some r := by
      refine ⟨_, List.getElem?_eq_getElem ?_⟩
      simp [Scatter.directions]; omega
    obtain ⟨r, hr⟩ := hr
    rw [hr] at hx'
    injection hx' with hx'
    obtain ⟨y, hy, hx'⟩ := Option.bind_eq_some_iff.1 hx'
    have hyi := seqPt_some hy i
    obtain ⟨u, hu, hui⟩ := Option.map_eq_some_iff.1 hyi
    obtain ⟨u1, u2⟩ := hv.uniformExcl_mem _ _ _ _ _ hu
    obtain ⟨uf, ub⟩ := abs_of_tenth u1 u2
    obtain ⟨fa, la, ua, _⟩ := hfin ha i
    obtain ⟨fb, lb, ub', _⟩ := hfin hb i
    obtain ⟨fl, t, ht, he⟩ := middle_val fa fb (hp.lower i).1 (hp.upper i).1 uf la ua lb ub'
      (by rw [← two_half_top]; exact (hp.lower i).2) (by rw [← two_half_top]; exact (hp.upper i).2) ub
    rw [hui] at fl he
    have hc := clamp_val fl (hp.lower i).1 (hp.upper i).1 (seqPt_some hx' i)
    refine ⟨t, ht, ?_⟩
    rw [hc, eta_four]
    refine (proj_lipschitz _ _ _ _).trans (he.trans (le_of_eq ?_))
    rw [uro_num]
    norm_num
    ring

theorem take_drop_flatten {α : Type} {k : Nat} : ∀ (parts : List (List α)), (∀ q ∈ parts, q.length = k) →
    ∀ (t : Nat) part, parts[t]? = some part → (parts.flatten.drop (k * t)).take k = part := by
  intro parts
  induction parts with
  | nil => intro _ t part h; simp at h
  | cons a parts ih =>
    intro hl t part h
    have ha := hl a List.mem_cons_self
    cases t with
    | zero =>
      injection h with h
      subst h
      rw [Nat.mul_zero, List.drop_zero, List.flatten_cons, ← ha, List.take_left]
    | succ t =>
      rw [List.flatten_cons, Nat.mul_succ, Nat.add_comm, ← List.drop_drop]
      rw [show List.drop k (a ++ parts.flatten) = parts.flatten by rw [← ha, List.drop_left]]
      exact ih (fun q hq => hl q (List.mem_cons_of_mem _ hq)) t part (by simpa using h)

/-- C108 (partial: bounds of magnitude at most `2^1022`): the trial points generated from the initial reference set
consist of exactly one block of six combinations for each pair of the best `k` reference points. -/
theorem C108_trials_partial (rt : Rt n) (hv : rt.Valid) (sched : Sched) (s s1 s2 : Scatter n)
    (hg : GoodBounds s.problem) (hp : Moderate s.problem) (hc : customInside s) (l : List (Pt n))
    (h1 : s.init rt sched = .ok s1) (hsz : s1.refSet.length < 2 ^ 52) (h2 : s1.trialPoints rt = some (s2, l))
    (k : Nat) (hk : k = Nat.min (Nat.max (Nat.sqrt s1.refSet.length) 2) s1.refSet.length) :
    l.length = 6 * (k * (k - 1) / 2) ∧ ∃ pos : Nat → Nat → Nat,
      (∀ i j i' j', i < j → j < k → i' < j' → j' < k → pos i j = pos i' j' → i = i' ∧ j = j') ∧
      ∀ i j, i < j → j < k → pos i j < k * (k - 1) / 2 ∧ ∃ a b, s1.refSet[i]? = some a ∧ s1.refSet[j]? = some b ∧
        Combines s.problem a b ((l.drop (6 * pos i j)).take 6) := by
  refine ⟨C23_count rt s1 s2 l hsz h2 k hk, ?_⟩
  rw [← kOf_eq hsz] at hk
  obtain ⟨_, _, _, _, _, _, _, e, _⟩ := Scatter.init_ok hv h1
  have hq : s1.problem = s.problem := by rw [e]
  obtain ⟨_, parts, rfl, hlen, hparts⟩ := Scatter.trialPoints_parts h2
  rw [← hk] at hlen hparts
  have hall : ∀ part ∈ parts, part.length = 6 := by
    intro part hpart
    obtain ⟨t, ht⟩ := List.getElem?_of_mem hpart
    have hlt : t < parts.length := (List.getElem?_eq_some_iff.1 ht).1
    obtain ⟨a, b, part', _, _, hpt, hc⟩ := hparts t _ _
      (List.getElem?_eq_getElem (show t < (Scatter.pairs _).length by omega))
    rw [ht] at hpt
    injection hpt with hpt
    subst hpt
    exact (Scatter.combine_ok hc).1
  have hpos : ∀ i j, i < j → j < k → (Scatter.pairs k)[(Scatter.pairs k).idxOf (i, j)]? = some (i, j) := by
    intro i j h1 h2
    have hm := Scatter.mem_pairs.2 ⟨h1, h2⟩
    rw [List.getElem?_eq_getElem (List.idxOf_lt_length_of_mem hm), List.getElem_idxOf]
  refine ⟨fun i j => (Scatter.pairs k).idxOf (i, j), ?_, ?_⟩
  · intro i j i' j' a1 a2 a3 a4 h
    have b1 := hpos i j a1 a2
    have b2 := hpos i' j' a3 a4
    dsimp only at h
    rw [h, b2] at b1
    cases b1
    exact ⟨rfl, rfl⟩
  · intro i j a1 a2
    have hlt := (List.getElem?_eq_some_iff.1 (hpos i j a1 a2)).1
    refine ⟨by rw [← pairs_length]; exact hlt, ?_⟩
    obtain ⟨a, b, part, ga, gb, gp, gc⟩ := hparts _ i j (hpos i j a1 a2)
    refine ⟨a, b, ga, gb, ?_⟩
    rw [take_drop_flatten parts hall _ part gp]
    rw [hq] at gc
    exact C108_combine_partial rt hv s.problem hp a b
      (init_inBounds hv hg hc h1 (List.mem_of_getElem? ga)) (init_inBounds hv hg hc h1 (List.mem_of_getElem? gb)) _
      part gc

/-! ### Non-vacuity and counterexample -/

open GS.Witness

theorem huge_vals : realVal (huge.lower 0) = top ∧ realVal (huge.upper 0) = 2 * top * (1 - uro) := by
  have h1 : (huge.lower 0).toInt = 2 ^ 1023 * 2 ^ 1074 := by decide +kernel
  have h2 : 2 ^ 53 * (huge.upper 0).toInt = 2 * 2 ^ 1023 * (2 ^ 53 - 1) * 2 ^ 1074 := by decide +kernel
  have h1' : ((huge.lower 0).toInt : ℚ) = 2 ^ 1023 * 2 ^ 1074 := by rw [h1]; push_cast; rfl
  have h2' : (2 : ℚ) ^ 53 * ((huge.upper 0).toInt : ℚ) = 2 * 2 ^ 1023 * (2 ^ 53 - 1) * 2 ^ 1074 := by
    exact_mod_cast congrArg (Int.cast (R := ℚ)) h2
  have hc : (2 : ℚ) ^ 1074 ≠ 0 := pow_ne_zero _ (by norm_num)
  unfold realVal top uro
  generalize (2 : ℚ) ^ 1074 = c at *
  generalize (2 : ℚ) ^ 1023 = t at *
  constructor
  · rw [h1']; field_simp
  · field_simp
    norm_num at h2' ⊢
    linarith

/-- C108 fails for larger bounds: with bounds `[2^1023, f64::MAX]` the sum of two reference points overflows, and the
randomly perturbed points are at the upper bound instead of near the middle. -/
theorem C108_overflow_violated : inBounds huge huge.lower ∧ ∃ l,
    Scatter.combine (rt 1) huge huge.lower huge.lower 0 = some l ∧ l.length = 6 ∧
    ¬ Combines huge huge.lower huge.lower l := by
  have hin : inBounds huge huge.lower := by
    intro i
    have hi : i = 0 := Subsingleton.elim _ _
    subst hi
    decide +kernel
  have hl : ((Scatter.combine (rt 1) huge huge.lower huge.lower 0).bind (·[4]?)).map (· 0) =
      some (huge.upper 0) := by decide +kernel
  obtain ⟨x, hx, hx0⟩ := Option.map_eq_some_iff.1 hl
  obtain ⟨l, hl, hx⟩ := Option.bind_eq_some_iff.1 hx
  refine ⟨hin, l, hl, (Scatter.combine_ok hl).1, fun hc => ?_⟩
  obtain ⟨t, ht, h⟩ := hc.2.2 4 x (le_refl _) hx 0
  obtain ⟨v1, v2⟩ := huge_vals
  have hT := one_le_top
  have he := eta_le
  rw [hx0, v1, v2, eta_four, abs_of_pos (show 0 < top by linarith),
    abs_of_pos (show 0 < 2 * top * (1 - uro) by rw [uro_num]; linarith), uro_num] at h
  rw [abs_le] at ht
  have hb : proj top (2 * top * (1 - 1 / 9007199254740992)) ((top + top) / 2 +
      t * (2 * top * (1 - 1 / 9007199254740992) - top)) ≤ 11 / 10 * top := by
    refine max_le (by linarith) ((min_le_right _ _).trans ?_)
    have h1 : t * (2 * top * (1 - 1 / 9007199254740992) - top) ≤
        1 / 10 * (2 * top * (1 - 1 / 9007199254740992) - top) :=
      mul_le_mul_of_nonneg_right ht.2 (by linarith)
    linarith
  have h2 := (abs_le.1 h).2
  norm_num at h2 hb
  linarith

/-- The six combinations of 1 and 4 within `[1, 4]`: 13/4, 5/2, 7/4, the point 1/4 moved to 1, and the middle twice
plus the random part. -/
example : ∃ l, Scatter.combine (rt 1) lin (pt (num 1)) (pt (num 4)) 0 = some l ∧
    (l.take 4).map (· 0) = [F64.lit 13 4, F64.lit 5 2, F64.lit 7 4, F64.lit 1 1] ∧
    Combines lin (pt (num 1)) (pt (num 4)) l := by
  have hl : (Scatter.combine (rt 1) lin (pt (num 1)) (pt (num 4)) 0).map (fun l => (l.take 4).map (· 0)) =
      some [F64.lit 13 4, F64.lit 5 2, F64.lit 7 4, F64.lit 1 1] := by decide +kernel
  obtain ⟨l, hl, he⟩ := Option.map_eq_some_iff.1 hl
  refine ⟨l, hl, he, C108_combine_partial (rt 1) rt_valid lin ?_ _ _ ?_ ?_ 0 l hl⟩
  · have hv : ∀ k : Nat, k = 1 ∨ k = 4 → (num k).isFinite = true ∧ |realVal (num k)| ≤ 2 ^ 1022 := by
      have hb : (4 : ℚ) ≤ 2 ^ 1022 := by
        have h : (2 : ℚ) ^ 2 ≤ 2 ^ 1022 := pow_le_pow_right₀ (by norm_num) (by norm_num)
        exact le_trans (by norm_num) h
      rintro k (rfl | rfl)
      · refine ⟨by decide +kernel, ?_⟩
        rw [realVal_of (x := num 1) (p := 1) (q := 1) one_pos (by decide +kernel)]
        exact le_trans (by norm_num [abs_of_nonneg]) hb
      · refine ⟨by decide +kernel, ?_⟩
        rw [realVal_of (x := num 4) (p := 4) (q := 1) one_pos (by decide +kernel)]
        exact le_trans (by norm_num [abs_of_nonneg]) hb
    exact ⟨fun _ => hv 1 (.inl rfl), fun _ => hv 4 (.inr rfl), fun i => by revert i; decide +kernel⟩
  · unfold inBounds; decide +kernel
  · unfold inBounds; decide +kernel

end GS.Props
