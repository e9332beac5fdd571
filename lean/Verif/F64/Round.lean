/- Facts about the value function and rounding of the binary64 model. -/
import Verif.F64.Basic
import Mathlib.Tactic.Ring
import Mathlib.Tactic.Linarith
import Mathlib.Tactic.NormNum
import Mathlib.Tactic.Push
import Mathlib.Tactic.ByContra
import Mathlib.Data.Nat.Log
import Mathlib.Order.Monotone.Basic

namespace GS
namespace F64

theorem scale_pos : 0 < scale := by
  unfold scale; exact Nat.pow_pos (by decide)

/-- Distance from magnitude `m` to the next one: used in proofs about rounding only; no counterpart in
/repo. -/
def gap (m : Nat) : Nat := 2 ^ (m / 2 ^ 52 - 1)

theorem gap_pos (m : Nat) : 0 < gap m := Nat.pow_pos (by decide)

theorem uval_succ (m : Nat) : uval (m + 1) = uval m + gap m := by
  unfold uval gap
  by_cases h1 : m + 1 < 2 ^ 53
  · have h2 : m < 2 ^ 53 := by omega
    have h3 : m / 2 ^ 52 - 1 = 0 := by omega
    simp only [h1, h2, if_true, h3]
    rfl
  · by_cases h2 : m < 2 ^ 53
    · have h3 : m = 2 ^ 53 - 1 := by omega
      subst h3
      decide
    · simp only [h1, h2, if_false]
      by_cases h4 : (m + 1) % 2 ^ 52 = 0
      · have e1 : (m + 1) / 2 ^ 52 = m / 2 ^ 52 + 1 := by omega
        have e2 : m % 2 ^ 52 = 2 ^ 52 - 1 := by omega
        obtain ⟨k, hk⟩ : ∃ k, m / 2 ^ 52 = k + 2 := ⟨m / 2 ^ 52 - 2, by omega⟩
        rw [e1, e2, h4, hk]
        have e3 : k + 2 + 1 - 1 = k + 2 := by omega
        have e4 : k + 2 - 1 = k + 1 := by omega
        have e5 : 2 ^ 52 - 1 = 4503599627370495 := by norm_num
        rw [e3, e4, e5]
        ring
      · have e1 : (m + 1) / 2 ^ 52 = m / 2 ^ 52 := by omega
        have e2 : (m + 1) % 2 ^ 52 = m % 2 ^ 52 + 1 := by omega
        rw [e1, e2]
        ring

theorem uval_strictMono : StrictMono uval :=
  strictMono_nat_of_lt_succ fun m => by
    have h : uval m < uval (m + 1) := by
      have := uval_succ m
      have := gap_pos m
      omega
    exact h

theorem uval_le_iff {a b : Nat} : uval a ≤ uval b ↔ a ≤ b := uval_strictMono.le_iff_le
theorem uval_lt_iff {a b : Nat} : uval a < uval b ↔ a < b := uval_strictMono.lt_iff_lt
theorem uval_inj {a b : Nat} : uval a = uval b ↔ a = b := uval_strictMono.injective.eq_iff

@[simp] theorem uval_zero : uval 0 = 0 := by decide

theorem uval_small {m : Nat} (h : m < 2 ^ 53) : uval m = m := by
  unfold uval; rw [if_pos h]

theorem uval_mk (s t : Nat) (h : s = 0 ∧ t < 2 ^ 53 ∨ 2 ^ 52 ≤ t ∧ t < 2 ^ 53) :
    uval (s * 2 ^ 52 + t) = t * 2 ^ s := by
  unfold uval
  rcases Nat.eq_zero_or_pos s with hs | hs
  · subst hs
    have : 0 * 2 ^ 52 + t < 2 ^ 53 := by omega
    simp only [this, if_true]; ring
  · have ht : 2 ^ 52 ≤ t ∧ t < 2 ^ 53 := by omega
    have h1 : ¬ s * 2 ^ 52 + t < 2 ^ 53 := by omega
    have h2 : (s * 2 ^ 52 + t) % 2 ^ 52 = t - 2 ^ 52 := by omega
    have h3 : (s * 2 ^ 52 + t) / 2 ^ 52 - 1 = s := by omega
    simp only [h1, if_false, h2, h3]
    rw [show 2 ^ 52 + (t - 2 ^ 52) = t by omega]

/-- The truncated quotient used by `roundMag` has at most 53 bits and exactly 53 after a shift. -/
theorem roundMag_trunc (p q : Nat) (hq : 0 < q) :
    shift (p / q) = 0 ∧ p / (q * 2 ^ shift (p / q)) < 2 ^ 53 ∨
    2 ^ 52 ≤ p / (q * 2 ^ shift (p / q)) ∧ p / (q * 2 ^ shift (p / q)) < 2 ^ 53 := by
  by_cases h : p / q < 2 ^ 53
  · left
    have hs : shift (p / q) = 0 := by unfold shift; rw [if_pos h]
    rw [hs]
    simpa using h
  · right
    have hs : shift (p / q) = Nat.log2 (p / q) - 52 := by simp only [shift, h, if_false]
    rw [← Nat.div_div_eq_div_mul, hs]
    set n := p / q with hn
    have hn0 : n ≠ 0 := by omega
    have h1 : 2 ^ n.log2 ≤ n := Nat.log2_self_le hn0
    have h2 : n < 2 ^ (n.log2 + 1) := Nat.lt_log2_self
    have h3 : 53 ≤ n.log2 := by
      rw [Nat.le_log2 hn0]; omega
    obtain ⟨k, hk⟩ : ∃ k, n.log2 = k + 52 := ⟨n.log2 - 52, by omega⟩
    rw [hk] at h1 h2 ⊢
    have e : k + 52 - 52 = k := by omega
    rw [e]
    have hk0 : 0 < 2 ^ k := Nat.pow_pos (by decide)
    have p1 : 2 ^ (k + 52) = 2 ^ 52 * 2 ^ k := by ring
    have p2 : 2 ^ (k + 52 + 1) = 2 ^ 53 * 2 ^ k := by ring
    rw [p1] at h1
    rw [p2] at h2
    exact ⟨(Nat.le_div_iff_mul_le hk0).2 h1, (Nat.div_lt_iff_lt_mul hk0).2 h2⟩

/-- Characterisation of round-to-nearest-even: the rounded magnitude is at most `M` exactly when
the number lies below the midpoint of `M` and `M+1`, or on it with `M` even. -/
theorem roundMag_le_iff (p q M : Nat) (hq : 0 < q) :
    roundMag p q ≤ M ↔
      2 * p < q * (uval M + uval (M + 1)) ∨
      (2 * p = q * (uval M + uval (M + 1)) ∧ M % 2 = 0) := by
  have htr := roundMag_trunc p q hq
  unfold roundMag
  simp only
  set s := shift (p / q) with hs
  set d := q * 2 ^ s with hd
  have hd0 : 0 < d := Nat.mul_pos hq (Nat.pow_pos (by decide))
  set t := p / d with ht
  set r := p % d with hr
  have hp : p = d * t + r := (Nat.div_add_mod p d).symm
  have hrd : r < d := Nat.mod_lt _ hd0
  have hu : uval (s * 2 ^ 52 + t) = t * 2 ^ s := uval_mk s t htr
  have hu1 : uval (s * 2 ^ 52 + t + 1) = (t + 1) * 2 ^ s := by
    rw [uval_succ, hu, gap]
    have : (s * 2 ^ 52 + t) / 2 ^ 52 - 1 = s := by omega
    rw [this]; ring
  set K := s * 2 ^ 52 + t with hK
  have hqu : q * uval K = d * t := by rw [hu, hd]; ring
  have hqu1 : q * uval (K + 1) = d * t + d := by rw [hu1, hd]; ring
  have hrne : rne p d = t ∨ rne p d = t + 1 := by
    unfold rne; simp only [← ht, ← hr]
    split
    · left; rfl
    · split
      · right; rfl
      · omega
  rcases lt_trichotomy M K with hlt | heq | hgt
  · have h1 : uval (M + 1) ≤ uval K := uval_le_iff.2 hlt
    have h2 : uval M < uval (M + 1) := uval_lt_iff.2 (Nat.lt_succ_self M)
    have h3 : q * (uval M + uval (M + 1)) < 2 * (d * t) := by
      have : q * (uval M + uval (M + 1)) < q * (2 * uval K) :=
        Nat.mul_lt_mul_of_pos_left (by omega) hq
      calc _ < q * (2 * uval K) := this
        _ = 2 * (q * uval K) := by ring
        _ = _ := by rw [hqu]
    constructor
    · intro h; omega
    · intro h; omega
  · rw [heq]
    have e : q * (uval K + uval (K + 1)) = 2 * (d * t) + d := by
      rw [Nat.mul_add, hqu, hqu1]; ring
    rw [e]
    have hpar : K % 2 = t % 2 := by omega
    rw [hpar]
    unfold rne; simp only [← ht, ← hr]
    split
    · constructor <;> intro _ <;> omega
    · split
      · constructor <;> intro _ <;> omega
      · constructor <;> intro _ <;> omega
  · have h1 : uval (K + 1) ≤ uval M := uval_le_iff.2 hgt
    have h2 : uval M < uval (M + 1) := uval_lt_iff.2 (Nat.lt_succ_self M)
    have h3 : 2 * (d * t + d) ≤ q * (uval M + uval (M + 1)) := by
      calc 2 * (d * t + d) = q * (2 * uval (K + 1)) := by rw [← hqu1]; ring
        _ ≤ _ := Nat.mul_le_mul_left q (by omega)
    constructor
    · intro _; left; omega
    · intro _; omega

theorem roundMag_mono {p q p' q' : Nat} (hq : 0 < q) (hq' : 0 < q') (h : p * q' ≤ p' * q) :
    roundMag p q ≤ roundMag p' q' := by
  rw [roundMag_le_iff _ _ _ hq]
  have h1 := (roundMag_le_iff p' q' (roundMag p' q') hq').1 le_rfl
  set M := roundMag p' q'
  set U := uval M + uval (M + 1)
  by_contra hcon
  rw [not_or, not_and] at hcon
  obtain ⟨hc1, hc2⟩ := hcon
  rcases h1 with h1 | ⟨h1, h2⟩
  · have a1 : q * U ≤ 2 * p := Nat.le_of_not_lt hc1
    have a2 : q' * (q * U) ≤ q' * (2 * p) := Nat.mul_le_mul_left _ a1
    have a3 : q * (2 * p') < q * (q' * U) := Nat.mul_lt_mul_of_pos_left h1 hq
    nlinarith
  · have a1 : q * U < 2 * p := by
      rcases Nat.lt_or_ge (q * U) (2 * p) with h | h
      · exact h
      · exfalso
        rcases Nat.lt_or_ge (2 * p) (q * U) with h' | h'
        · exact hc1 h'
        · exact hc2 (le_antisymm h h') h2
    have a2 : q' * (q * U) < q' * (2 * p) := Nat.mul_lt_mul_of_pos_left a1 hq'
    have a3 : q * (2 * p') = q * (q' * U) := by rw [h1]
    nlinarith

theorem roundMag_uval (M q : Nat) (hq : 0 < q) : roundMag (q * uval M) q = M := by
  apply le_antisymm
  · rw [roundMag_le_iff _ _ _ hq]
    left
    have : uval M < uval (M + 1) := uval_lt_iff.2 (Nat.lt_succ_self M)
    have : q * (2 * uval M) < q * (uval M + uval (M + 1)) :=
      Nat.mul_lt_mul_of_pos_left (by omega) hq
    calc _ = q * (2 * uval M) := by ring
      _ < _ := this
  · by_contra hcon
    have hlt : roundMag (q * uval M) q ≤ M - 1 := by omega
    have hM : 0 < M := by omega
    rw [roundMag_le_iff _ _ _ hq] at hlt
    have e : M - 1 + 1 = M := by omega
    rw [e] at hlt
    have : uval (M - 1) < uval M := uval_lt_iff.2 (by omega)
    have : q * (uval (M - 1) + uval M) < q * (2 * uval M) :=
      Nat.mul_lt_mul_of_pos_left (by omega) hq
    have e2 : q * (2 * uval M) = 2 * (q * uval M) := by ring
    omega

theorem roundMag_le_of_le {p q M : Nat} (hq : 0 < q) (h : p ≤ q * uval M) : roundMag p q ≤ M := by
  calc roundMag p q ≤ roundMag (q * uval M) q :=
        roundMag_mono hq hq (Nat.mul_le_mul_right _ h)
    _ = M := roundMag_uval M q hq

theorem le_roundMag_of_le {p q M : Nat} (hq : 0 < q) (h : q * uval M ≤ p) : M ≤ roundMag p q := by
  calc M = roundMag (q * uval M) q := (roundMag_uval M q hq).symm
    _ ≤ _ := roundMag_mono hq hq (Nat.mul_le_mul_right _ h)

@[simp] theorem roundMag_zero (q : Nat) (hq : 0 < q) : roundMag 0 q = 0 := by
  have := roundMag_uval 0 q hq
  simpa using this

/-! ### Classification -/

theorem infMag_lt : infMag < 2 ^ 63 := by decide

@[simp] theorem mkRound_neg (s : Bool) (k : Nat) : (mkRound s k).neg = s := rfl
@[simp] theorem mkRound_mag (s : Bool) (k : Nat) : (mkRound s k).mag = Nat.min k infMag := rfl

theorem mkRound_not_nan (s : Bool) (k : Nat) : (mkRound s k).isNaN = false := by
  have h : Nat.min k infMag ≤ infMag := Nat.min_le_right _ _
  have h2 : (mkRound s k).mag ≤ infMag := h
  unfold isNaN; exact decide_eq_false (by omega)

@[ext] theorem ext' {x y : F64} (h1 : x.neg = y.neg) (h2 : x.mag = y.mag) : x = y := by
  cases x; cases y; simp_all

theorem isNaN_iff {x : F64} : x.isNaN = true ↔ infMag < x.mag := by simp [isNaN]
theorem not_isNaN_iff {x : F64} : x.isNaN = false ↔ x.mag ≤ infMag := by simp [isNaN]
theorem isFinite_iff {x : F64} : x.isFinite = true ↔ x.mag < infMag := by simp [isFinite]
theorem isInf_iff {x : F64} : x.isInf = true ↔ x.mag = infMag := by simp [isInf]

theorem fin_not_nan {x : F64} (h : x.isFinite = true) : x.isNaN = false := by
  rw [isFinite_iff] at h; rw [not_isNaN_iff]; omega
theorem fin_not_inf {x : F64} (h : x.isFinite = true) : x.isInf = false := by
  rw [isFinite_iff] at h; simp [isInf]; omega

theorem class_cases (x : F64) :
    x.isNaN = true ∧ x.isInf = false ∧ x.isFinite = false ∨
    x.isNaN = false ∧ x.isInf = true ∧ x.isFinite = false ∨
    x.isNaN = false ∧ x.isInf = false ∧ x.isFinite = true := by
  simp only [isNaN, isInf, isFinite, decide_eq_true_eq, decide_eq_false_iff_not]; omega

/-! ### Comparisons -/

theorem lt_iff {x y : F64} : lt x y = true ↔ x.isNaN = false ∧ y.isNaN = false ∧ x.key < y.key := by
  simp [lt, and_assoc]
theorem le_iff {x y : F64} : le x y = true ↔ x.isNaN = false ∧ y.isNaN = false ∧ x.key ≤ y.key := by
  simp [le, and_assoc]
theorem feq_iff {x y : F64} :
    feq x y = true ↔ x.isNaN = false ∧ y.isNaN = false ∧ x.key = y.key := by
  simp [feq, and_assoc]
theorem tlt_iff {x y : F64} : tlt x y = true ↔ x.tkey < y.tkey := by simp [tlt]
theorem tle_iff {x y : F64} : tle x y = true ↔ x.tkey ≤ y.tkey := by simp [tle]

theorem le_refl_of {x : F64} (h : x.isNaN = false) : le x x = true := by simp [le_iff, h]
theorem le_trans' {x y z : F64} (h1 : le x y = true) (h2 : le y z = true) : le x z = true := by
  rw [le_iff] at *; exact ⟨h1.1, h2.2.1, le_trans h1.2.2 h2.2.2⟩
theorem lt_of_lt_of_le' {x y z : F64} (h1 : lt x y = true) (h2 : le y z = true) :
    lt x z = true := by
  rw [lt_iff] at *; rw [le_iff] at h2; exact ⟨h1.1, h2.2.1, lt_of_lt_of_le h1.2.2 h2.2.2⟩
theorem lt_of_le_of_lt' {x y z : F64} (h1 : le x y = true) (h2 : lt y z = true) :
    lt x z = true := by
  rw [lt_iff] at *; rw [le_iff] at h1; exact ⟨h1.1, h2.2.1, lt_of_le_of_lt h1.2.2 h2.2.2⟩
theorem lt_trans' {x y z : F64} (h1 : lt x y = true) (h2 : lt y z = true) : lt x z = true := by
  rw [lt_iff] at *; exact ⟨h1.1, h2.2.1, lt_trans h1.2.2 h2.2.2⟩
theorem le_of_lt' {x y : F64} (h : lt x y = true) : le x y = true := by
  rw [lt_iff] at h; rw [le_iff]; exact ⟨h.1, h.2.1, h.2.2.le⟩
theorem lt_irrefl' (x : F64) : lt x x = false := by simp [lt]
theorem not_lt_of_le {x y : F64} (h : le x y = true) : lt y x = false := by
  rw [le_iff] at h
  cases hh : lt y x
  · rfl
  · rw [lt_iff] at hh; omega
theorem le_of_not_lt {x y : F64} (hx : x.isNaN = false) (hy : y.isNaN = false)
    (h : lt x y = false) : le y x = true := by
  rw [le_iff]; refine ⟨hy, hx, ?_⟩
  by_contra hc
  have : lt x y = true := lt_iff.2 ⟨hx, hy, by omega⟩
  simp [this] at h

theorem tkey_inj {x y : F64} (h : x.tkey = y.tkey) : x = y := by
  unfold tkey at h
  apply ext'
  · cases hx : x.neg <;> cases hy : y.neg <;> simp [hx, hy] at h <;> first | rfl | omega
  · cases hx : x.neg <;> cases hy : y.neg <;> simp [hx, hy] at h <;> omega

/-- On non-NaN values the total order refines the numeric order. -/
theorem key_le_of_tkey_le {x y : F64} (h : x.tkey ≤ y.tkey) : x.key ≤ y.key := by
  unfold tkey at h; unfold key
  cases hx : x.neg <;> cases hy : y.neg <;> simp [hx, hy] at h ⊢ <;> omega

theorem le_of_tle {x y : F64} (hx : x.isNaN = false) (hy : y.isNaN = false)
    (h : tle x y = true) : le x y = true :=
  le_iff.2 ⟨hx, hy, key_le_of_tkey_le (tle_iff.1 h)⟩

theorem tlt_of_lt {x y : F64} (h : lt x y = true) : tlt x y = true := by
  rw [lt_iff] at h; rw [tlt_iff]
  by_contra hc
  have := key_le_of_tkey_le (x := y) (y := x) (by omega)
  omega

theorem key_le_inf {x : F64} (h : x.isNaN = false) : x.key ≤ infMag := by
  rw [not_isNaN_iff] at h; unfold key; split <;> omega

theorem le_inf {x : F64} (h : x.isNaN = false) : le x inf = true := by
  rw [le_iff]; refine ⟨h, by decide, ?_⟩
  have : inf.key = infMag := rfl
  rw [this]; exact key_le_inf h

theorem key_lt_of_toInt {x y : F64} (h : x.toInt < y.toInt) : x.key < y.key := by
  unfold toInt at h; unfold key
  have a := @uval_le_iff x.mag y.mag
  have b := @uval_le_iff y.mag x.mag
  have c := @uval_le_iff y.mag 0
  have d := @uval_le_iff x.mag 0
  rw [uval_zero] at c d
  cases hx : x.neg <;> cases hy : y.neg <;> simp [hx, hy] at h ⊢ <;> omega

theorem toInt_lt_iff {x y : F64} : x.toInt < y.toInt ↔ x.key < y.key := by
  refine ⟨key_lt_of_toInt, fun h => ?_⟩
  unfold key at h; unfold toInt
  have a := @uval_lt_iff x.mag y.mag
  have b := @uval_lt_iff y.mag x.mag
  have c := @uval_le_iff y.mag 0
  have d := @uval_le_iff x.mag 0
  rw [uval_zero] at c d
  cases hx : x.neg <;> cases hy : y.neg <;> simp [hx, hy] at h ⊢ <;> omega

theorem toInt_le_iff {x y : F64} : x.toInt ≤ y.toInt ↔ x.key ≤ y.key := by
  have := @toInt_lt_iff y x
  omega

theorem toInt_eq_zero_iff {x : F64} : x.toInt = 0 ↔ x.mag = 0 := by
  unfold toInt
  have c := @uval_inj x.mag 0
  rw [uval_zero] at c
  split <;> omega

/-! ### Signed rounding -/

/-- Comparison key of the exact rational `z / d` after rounding (with overflow to infinity): used in
proofs about rounding only; no counterpart in /repo. -/
def rkey (z : Int) (d : Nat) : Int :=
  if z < 0 then -((Nat.min (roundMag z.natAbs d) infMag : Nat) : Int)
  else ((Nat.min (roundMag z.natAbs d) infMag : Nat) : Int)

theorem rkey_nonneg {z : Int} {d : Nat} (h : 0 ≤ z) : 0 ≤ rkey z d := by
  unfold rkey; split <;> omega

theorem rkey_nonpos {z : Int} {d : Nat} (hd : 0 < d) (h : z ≤ 0) : rkey z d ≤ 0 := by
  unfold rkey
  split
  · omega
  · have : z = 0 := by omega
    subst this
    simp [roundMag_zero d hd]

theorem rkey_mono {z z' : Int} {d d' : Nat} (hd : 0 < d) (hd' : 0 < d')
    (h : z * d' ≤ z' * d) : rkey z d ≤ rkey z' d' := by
  rcases lt_or_ge z 0 with hz | hz
  · rcases lt_or_ge z' 0 with hz' | hz'
    · obtain ⟨a, rfl⟩ : ∃ a : Nat, z = -(a : Int) := ⟨z.natAbs, by omega⟩
      obtain ⟨b, rfl⟩ : ∃ b : Nat, z' = -(b : Int) := ⟨z'.natAbs, by omega⟩
      have hab : b * d ≤ a * d' := by
        have : (b : Int) * d ≤ a * d' := by nlinarith
        exact_mod_cast this
      have := roundMag_mono hd' hd hab
      unfold rkey
      simp only [hz, hz', if_true, Int.natAbs_neg, Int.natAbs_natCast]
      have h1 : Nat.min (roundMag b d') infMag ≤ Nat.min (roundMag a d) infMag := by
        simp only [Nat.min_def]; split <;> split <;> omega
      omega
    · exact le_trans (rkey_nonpos hd hz.le) (rkey_nonneg hz')
  · have hz' : 0 ≤ z' := by
      by_contra hc
      have h1 : z' * d < 0 := by
        have : (0 : Int) < d := by exact_mod_cast hd
        nlinarith
      have h2 : 0 ≤ z * d' := mul_nonneg hz (Int.natCast_nonneg d')
      omega
    obtain ⟨a, rfl⟩ : ∃ a : Nat, z = (a : Int) := ⟨z.natAbs, by omega⟩
    obtain ⟨b, rfl⟩ : ∃ b : Nat, z' = (b : Int) := ⟨z'.natAbs, by omega⟩
    have hab : a * d' ≤ b * d := by exact_mod_cast h
    have := roundMag_mono hd hd' hab
    unfold rkey
    have n1 : ¬ (a : Int) < 0 := by omega
    have n2 : ¬ (b : Int) < 0 := by omega
    simp only [n1, n2, if_false, Int.natAbs_natCast]
    have h1 : Nat.min (roundMag a d) infMag ≤ Nat.min (roundMag b d') infMag := by
      simp only [Nat.min_def]; split <;> split <;> omega
    omega

/-- Representable values are fixed points of rounding. -/
theorem rkey_toInt {x : F64} (hx : x.isNaN = false) (d : Nat) (hd : 0 < d) :
    rkey (d * x.toInt) d = x.key := by
  rw [not_isNaN_iff] at hx
  unfold toInt key
  have h0 : uval x.mag = 0 ↔ x.mag = 0 := by
    have := @uval_inj x.mag 0
    rwa [uval_zero] at this
  have hmin : Nat.min x.mag infMag = x.mag := Nat.min_eq_left hx
  cases hs : x.neg
  · simp only [Bool.false_eq_true, if_false]
    unfold rkey
    have e : (d : Int) * (uval x.mag : Int) = ((d * uval x.mag : Nat) : Int) := by push_cast; ring
    rw [e]
    have n1 : ¬ ((d * uval x.mag : Nat) : Int) < 0 := by omega
    simp only [n1, if_false, Int.natAbs_natCast, roundMag_uval _ _ hd, hmin]
  · simp only [if_true]
    unfold rkey
    have e : (d : Int) * -(uval x.mag : Int) = -((d * uval x.mag : Nat) : Int) := by push_cast; ring
    rw [e]
    simp only [Int.natAbs_neg, Int.natAbs_natCast, roundMag_uval _ _ hd, hmin]
    split
    · rfl
    · have : d * uval x.mag = 0 := by omega
      have : x.mag = 0 := by
        rcases Nat.mul_eq_zero.1 this with h | h
        · omega
        · exact h0.1 h
      omega

theorem rkey_le_of_le {z : Int} {d : Nat} {x : F64} (hd : 0 < d) (hx : x.isNaN = false)
    (h : z ≤ d * x.toInt) : rkey z d ≤ x.key := by
  rw [← rkey_toInt hx d hd]
  exact rkey_mono hd hd (by
    have : (0 : Int) ≤ d := by omega
    exact mul_le_mul_of_nonneg_right h this)

theorem le_rkey_of_le {z : Int} {d : Nat} {x : F64} (hd : 0 < d) (hx : x.isNaN = false)
    (h : d * x.toInt ≤ z) : x.key ≤ rkey z d := by
  rw [← rkey_toInt hx d hd]
  exact rkey_mono hd hd (by
    have : (0 : Int) ≤ d := by omega
    exact mul_le_mul_of_nonneg_right h this)

theorem key_mkRound (s : Bool) (k : Nat) :
    (mkRound s k).key = if s then -((Nat.min k infMag : Nat) : Int) else (Nat.min k infMag : Nat) := by
  unfold key; simp

theorem key_roundZ (z : Int) (d : Nat) : (roundZ z d).key = rkey z d := by
  unfold roundZ rkey
  rw [key_mkRound]
  by_cases h : z < 0 <;> simp [h]

/-! ### Arithmetic on finite values -/

theorem add_not_nan {x y : F64} (hx : x.isFinite = true) (hy : y.isFinite = true) :
    (add x y).isNaN = false := by
  unfold add
  simp only [fin_not_nan hx, fin_not_nan hy, fin_not_inf hx, fin_not_inf hy, Bool.or_self, Bool.false_eq_true,
    if_false]
  split
  · split <;> decide
  · exact mkRound_not_nan _ _

theorem key_add {x y : F64} (hx : x.isFinite = true) (hy : y.isFinite = true) :
    (add x y).key = rkey (x.toInt + y.toInt) 1 := by
  unfold add
  simp only [fin_not_nan hx, fin_not_nan hy, fin_not_inf hx, fin_not_inf hy, Bool.or_self, Bool.false_eq_true,
    if_false]
  split
  · rename_i h
    rw [h]
    split <;> decide
  · exact key_roundZ _ _

@[simp] theorem fneg_isNaN (x : F64) : (fneg x).isNaN = x.isNaN := rfl
@[simp] theorem fneg_isInf (x : F64) : (fneg x).isInf = x.isInf := rfl
@[simp] theorem fneg_isFinite (x : F64) : (fneg x).isFinite = x.isFinite := rfl
@[simp] theorem abs_isNaN (x : F64) : (abs x).isNaN = x.isNaN := rfl
@[simp] theorem abs_isInf (x : F64) : (abs x).isInf = x.isInf := rfl
@[simp] theorem abs_isFinite (x : F64) : (abs x).isFinite = x.isFinite := rfl
@[simp] theorem abs_neg (x : F64) : (abs x).neg = false := rfl
@[simp] theorem abs_mag (x : F64) : (abs x).mag = x.mag := rfl

theorem fneg_toInt (x : F64) : (fneg x).toInt = -x.toInt := by
  unfold fneg toInt; cases x.neg <;> simp
theorem fneg_key (x : F64) : (fneg x).key = -x.key := by
  unfold fneg key; cases x.neg <;> simp
theorem abs_toInt (x : F64) : (abs x).toInt = |x.toInt| := by
  unfold abs toInt; cases x.neg <;> simp
theorem abs_key (x : F64) : (abs x).key = |x.key| := by
  unfold abs key; cases x.neg <;> simp

theorem sub_not_nan {x y : F64} (hx : x.isFinite = true) (hy : y.isFinite = true) :
    (sub x y).isNaN = false := add_not_nan hx hy
theorem key_sub {x y : F64} (hx : x.isFinite = true) (hy : y.isFinite = true) :
    (sub x y).key = rkey (x.toInt - y.toInt) 1 := by
  unfold sub; rw [key_add hx (by simpa using hy), fneg_toInt]; rfl

theorem mul_not_nan {x y : F64} (hx : x.isFinite = true) (hy : y.isFinite = true) :
    (mul x y).isNaN = false := by
  unfold mul
  simp only [fin_not_nan hx, fin_not_nan hy, fin_not_inf hx, fin_not_inf hy, Bool.or_self, Bool.false_eq_true,
    if_false]
  exact mkRound_not_nan _ _

theorem key_mul {x y : F64} (hx : x.isFinite = true) (hy : y.isFinite = true) :
    (mul x y).key = rkey (x.toInt * y.toInt) scale := by
  have hp : 0 < scale := scale_pos
  unfold mul
  simp only [fin_not_nan hx, fin_not_nan hy, fin_not_inf hx, fin_not_inf hy, Bool.or_self, Bool.false_eq_true,
    if_false]
  rw [key_mkRound]
  unfold toInt rkey
  have habs : ∀ a b : Nat, ((a : Int) * (b : Int)).natAbs = a * b := fun a b => by
    rw [Int.natAbs_mul]; rfl
  cases x.neg <;> cases y.neg <;>
    simp only [bne_self_eq_false, Bool.false_eq_true, if_false, if_true, Int.neg_mul, Int.mul_neg,
      Int.neg_neg, Int.natAbs_neg, habs, Bool.true_bne, Bool.false_bne, Bool.not_false,
      Bool.not_true]
  · have : ¬ ((uval x.mag : Int) * (uval y.mag : Int) < 0) := by
      have : (0:Int) ≤ (uval x.mag : Int) * (uval y.mag : Int) := Int.mul_nonneg (Int.natCast_nonneg _) (Int.natCast_nonneg _)
      omega
    simp only [this, if_false]
  · split
    · rfl
    · have h0 : uval x.mag * uval y.mag = 0 := by
        have h1 : (0:Int) ≤ (uval x.mag : Int) * (uval y.mag : Int) := Int.mul_nonneg (Int.natCast_nonneg _) (Int.natCast_nonneg _)
        have h2 : (uval x.mag : Int) * (uval y.mag : Int) = 0 := by omega
        exact_mod_cast h2
      rw [h0, roundMag_zero _ hp]; simp
  · split
    · rfl
    · have h0 : uval x.mag * uval y.mag = 0 := by
        have h1 : (0:Int) ≤ (uval x.mag : Int) * (uval y.mag : Int) := Int.mul_nonneg (Int.natCast_nonneg _) (Int.natCast_nonneg _)
        have h2 : (uval x.mag : Int) * (uval y.mag : Int) = 0 := by omega
        exact_mod_cast h2
      rw [h0, roundMag_zero _ hp]; simp
  · have : ¬ ((uval x.mag : Int) * (uval y.mag : Int) < 0) := by
      have : (0:Int) ≤ (uval x.mag : Int) * (uval y.mag : Int) := Int.mul_nonneg (Int.natCast_nonneg _) (Int.natCast_nonneg _)
      omega
    simp only [this, if_false]

/-- Division by a positive finite value. -/
theorem key_div_pos {x y : F64} (hx : x.isFinite = true) (hy : y.isFinite = true)
    (hpos : 0 < y.key) :
    (div x y).isNaN = false ∧ (div x y).key = rkey (x.toInt * scale) (uval y.mag) := by
  have hp : 0 < scale := scale_pos
  have hneg : y.neg = false := by
    unfold key at hpos; cases h : y.neg <;> simp [h] at hpos ⊢; omega
  have hmag : y.mag ≠ 0 := by
    unfold key at hpos; simp [hneg] at hpos; omega
  have hu : 0 < uval y.mag := by
    have := @uval_lt_iff 0 y.mag
    rw [uval_zero] at this; omega
  unfold div
  simp only [fin_not_nan hx, fin_not_nan hy, fin_not_inf hx, fin_not_inf hy, Bool.or_self, Bool.false_eq_true,
    if_false, hmag]
  refine ⟨mkRound_not_nan _ _, ?_⟩
  rw [key_mkRound]
  unfold toInt rkey
  rw [hneg]
  have habs : ∀ a b : Nat, ((a : Int) * (b : Int)).natAbs = a * b := fun a b => by
    rw [Int.natAbs_mul]; rfl
  cases x.neg <;>
    simp only [bne_self_eq_false, Bool.false_eq_true, if_false, if_true, Int.neg_mul, Int.mul_neg,
      Int.neg_neg, Int.natAbs_neg, habs, Bool.true_bne, Bool.not_false]
  · have : ¬ ((uval x.mag : Int) * (scale : Int) < 0) := by
      have : (0:Int) ≤ (uval x.mag : Int) * (scale : Int) := Int.mul_nonneg (Int.natCast_nonneg _) (Int.natCast_nonneg _)
      omega
    simp only [this, if_false]
  · split
    · rfl
    · have h0 : uval x.mag * scale = 0 := by
        have h1 : (0:Int) ≤ (uval x.mag : Int) * (scale : Int) := Int.mul_nonneg (Int.natCast_nonneg _) (Int.natCast_nonneg _)
        have h2 : (uval x.mag : Int) * (scale : Int) = 0 := by omega
        exact_mod_cast h2
      rw [h0, roundMag_zero _ hu]; simp

end F64
end GS
