/- Floating-point facts behind the bounds property of stage 1. -/
import Verif.Lemmas.Scatter
import Verif.Lemmas.Tolerance

namespace GS
open F64
variable {n : Nat}

/-- Twice a magnitude. -/
theorem uval_double (m : Nat) : uval (if m < 2 ^ 52 then 2 * m else m + 2 ^ 52) = 2 * uval m := by
  split
  · rename_i h
    rw [uval_small (by omega), uval_small (by omega)]
  · rename_i h
    rw [uval_half (by omega)]
    simp

theorem uval_two : uval F64.two.mag = 2 * scale := by
  unfold scale
  decide +kernel

/-- The exact sum being at least twice `l`, so is the rounded one. -/
theorem double_le {l y : F64} (hl : l.isFinite = true) (hy : y.isFinite = true) {z : Int}
    (hz : y.key = rkey z 1) (h : 2 * l.toInt ≤ z) : 2 * l.toInt ≤ y.toInt := by
  have hd := uval_double l.mag
  generalize hm : (if l.mag < 2 ^ 52 then 2 * l.mag else l.mag + 2 ^ 52) = m at hd
  have hyn := fin_not_nan hy
  rw [isFinite_iff] at hl hy
  have hinf : infMag = 2047 * 2 ^ 52 := rfl
  by_cases hle : m ≤ infMag
  · have hmm : m < 2 ^ 63 := by have := infMag_lt; omega
    have hn : (⟨l.neg, m, hmm⟩ : F64).isNaN = false := not_isNaN_iff.2 hle
    have ht : (⟨l.neg, m, hmm⟩ : F64).toInt = 2 * l.toInt := by
      unfold toInt
      dsimp only
      rw [hd]
      split <;> push_cast <;> ring
    have := le_rkey_of_le (z := z) (d := 1) (by decide) hn (by rw [ht]; simpa using h)
    rw [← hz, ← toInt_le_iff, ht] at this
    exact this
  · have hbig : uval infMag < 2 * uval l.mag := by
      rw [← hd]; exact uval_lt_iff.2 (by omega)
    by_cases hneg : l.neg = true
    · have e : l.toInt = -(uval l.mag : Int) := by unfold toInt; rw [if_pos hneg]
      have hyu : uval y.mag ≤ uval infMag := uval_le_iff.2 (by omega)
      have : -(uval y.mag : Int) ≤ y.toInt := by unfold toInt; split <;> omega
      omega
    · have e : l.toInt = (uval l.mag : Int) := by unfold toInt; rw [if_neg hneg]
      have hti : F64.inf.toInt = uval infMag := rfl
      have := le_rkey_of_le (z := z) (d := 1) (x := F64.inf) (by decide) (by decide)
        (by rw [hti]; push_cast; omega)
      have hk : F64.inf.key = infMag := rfl
      rw [hk, ← hz] at this
      unfold key at this
      split at this <;> omega

theorem le_double {u y : F64} (hu : u.isFinite = true) (hy : y.isFinite = true) {z : Int}
    (hz : y.key = rkey z 1) (h : z ≤ 2 * u.toInt) : y.toInt ≤ 2 * u.toInt := by
  have hr : ∀ z : Int, rkey (-z) 1 = -rkey z 1 := by
    intro z
    unfold rkey
    have h0 : roundMag 0 1 = 0 := by decide
    rcases lt_trichotomy z 0 with h | h | h
    · rw [if_neg (by omega), if_pos h, Int.natAbs_neg]; omega
    · subst h; simp [h0]
    · rw [if_pos (by omega), if_neg (by omega), Int.natAbs_neg]
  have := double_le (l := u.fneg) (y := y.fneg) (z := -z) (by simpa using hu) (by simpa using hy)
    (by rw [fneg_key, hz, hr]) (by rw [fneg_toInt]; omega)
  rw [fneg_toInt, fneg_toInt] at this
  omega

/-- The computed midpoint of two finite bounds whose sum does not overflow lies between them. -/
theorem midpoint_mem {l u : F64} (hl : l.isFinite = true) (hu : u.isFinite = true)
    (hlu : F64.le l u = true) (hs : (l.add u).isFinite = true) :
    F64.le l ((l.add u).div F64.two) = true ∧ F64.le ((l.add u).div F64.two) u = true := by
  have hk := key_add hl hu
  have hlu' := (toInt_le_iff (x := l) (y := u)).2 (le_iff.1 hlu).2.2
  have h1 := double_le hl hs hk (by omega)
  have h2 := le_double hu hs hk (by omega)
  obtain ⟨hn, hd⟩ := key_div_pos hs (y := F64.two) (by decide) (by decide)
  rw [uval_two] at hd
  have hp := scale_pos
  have hp' : (0 : Int) < (scale : Int) := by exact_mod_cast hp
  rw [le_iff, le_iff, hd]
  refine ⟨⟨fin_not_nan hl, hn, le_rkey_of_le (by omega) (fin_not_nan hl) ?_⟩, hn, fin_not_nan hu,
    rkey_le_of_le (by omega) (fin_not_nan hu) ?_⟩
  · push_cast; nlinarith
  · push_cast; nlinarith

/-- Multiplying by a factor of absolute value at most one stays finite. -/
theorem mul_finite {x c : F64} (hx : x.isFinite = true) (hc : c.mag ≤ F64.one.mag) :
    (x.mul c).isFinite = true ∧ (c.mul x).isFinite = true := by
  have hcf : c.isFinite = true := by
    rw [isFinite_iff]
    have : F64.one.mag < infMag := by decide
    omega
  have hu : uval c.mag ≤ scale := by
    have : uval F64.one.mag = scale := by unfold scale; decide +kernel
    rw [← this]; exact uval_le_iff.2 hc
  have aux : ∀ p, p ≤ scale * uval x.mag → roundMag p scale < infMag := by
    intro p hp
    have := roundMag_le_of_le (M := x.mag) scale_pos hp
    rw [isFinite_iff] at hx
    omega
  have hmin : ∀ k, k < infMag → Nat.min k infMag < infMag := by
    intro k hk
    have : Nat.min k infMag ≤ k := Nat.min_le_left _ _
    omega
  constructor <;>
  · rw [isFinite_iff]
    unfold F64.mul
    simp only [fin_not_nan hx, fin_not_nan hcf, fin_not_inf hx, fin_not_inf hcf, Bool.or_self,
      Bool.false_eq_true, if_false, mkRound_mag]
    apply hmin
    apply aux
    nlinarith

/-- Adding a finite number to a number never gives NaN. -/
theorem add_not_nan' {x y : F64} (hx : x.isNaN = false) (hy : y.isFinite = true) :
    (x.add y).isNaN = false := by
  by_cases hf : x.isFinite = true
  · exact add_not_nan hf hy
  · have hi : x.isInf = true := by
      rcases class_cases x with h | h | h
      · rw [hx] at h; cases h.1
      · exact h.2.1
      · exact absurd h.2.2 hf
    unfold F64.add
    simp only [hx, fin_not_nan hy, hi, fin_not_inf hy, Bool.or_self, Bool.false_eq_true, if_false,
      if_true, Bool.false_and]

theorem half_not_nan {x : F64} (hx : x.isNaN = false) : (x.div F64.two).isNaN = false := by
  have h1 : F64.two.isNaN = false := by decide
  have h2 : F64.two.isInf = false := by decide
  have h3 : ¬ F64.two.mag = 0 := by decide
  unfold F64.div
  simp only [hx, h1, h2, h3, Bool.or_self, Bool.false_eq_true, if_false]
  split <;> exact mkRound_not_nan _ _

theorem clamp_mem {x lo hi y : F64} (hx : x.isNaN = false) (h : x.clamp lo hi = some y) :
    F64.le lo y = true ∧ F64.le y hi = true := by
  unfold F64.clamp at h
  split at h
  · rename_i hle
    obtain ⟨h1, h2, h3⟩ := le_iff.1 hle
    injection h with h
    by_cases ha : F64.lt x lo = true
    · rw [if_pos ha] at h
      rw [if_neg (by rw [lt_iff]; omega)] at h
      subst h
      exact ⟨le_refl_of h1, hle⟩
    · rw [if_neg ha] at h
      have hlo := le_of_not_lt hx h1 (by simpa using ha)
      by_cases hb : F64.lt hi x = true
      · rw [if_pos hb] at h; subst h
        exact ⟨hle, le_refl_of h2⟩
      · rw [if_neg hb] at h; subst h
        exact ⟨hlo, le_of_not_lt h2 hx (by simpa using hb)⟩
  · cases h

theorem clamp_some {x lo hi : F64} (h : F64.le lo hi = true) : ∃ y, x.clamp lo hi = some y := by
  unfold F64.clamp
  rw [if_pos h]
  exact ⟨_, rfl⟩

/-- A number between two finite numbers is finite. -/
theorem finite_of_between {l u x : F64} (hl : l.isFinite = true) (hu : u.isFinite = true)
    (h1 : F64.le l x = true) (h2 : F64.le x u = true) : x.isFinite = true := by
  rw [le_iff] at h1 h2
  rw [isFinite_iff] at *
  have a := h1.2.2
  have b := h2.2.2
  unfold key at a b
  split at a <;> split at b <;> (try split at a) <;> (try split at b) <;> omega

/-- Bounds for which stage 1 works: finite, ordered, with finite width and finite sum. -/
structure GoodBounds (p : Problem n) : Prop where
  lower : ∀ i, (p.lower i).isFinite = true
  upper : ∀ i, (p.upper i).isFinite = true
  ordered : ∀ i, F64.le (p.lower i) (p.upper i) = true
  width : ∀ i, ((p.upper i).sub (p.lower i)).isFinite = true
  sum : ∀ i, ((p.lower i).add (p.upper i)).isFinite = true

namespace Scatter

theorem applyBounds_mem {p : Problem n} {x y : Pt n} (hx : ∀ i, (x i).isNaN = false)
    (h : applyBounds p x = some y) (i : Fin n) :
    F64.le (p.lower i) (y i) = true ∧ F64.le (y i) (p.upper i) = true :=
  clamp_mem (hx i) (seqPt_some h i)

theorem lincomb_not_nan {a b : Pt n} (ha : ∀ i, (a i).isFinite = true)
    (hb : ∀ i, (b i).isFinite = true) {alpha : F64} (h : alpha ∈ directions) (i : Fin n) :
    (lincomb a b alpha i).isNaN = false := by
  have key : alpha.isFinite = true ∧ (F64.one.sub alpha).mag ≤ F64.one.mag := by
    unfold directions at h
    simp only [List.mem_cons, List.not_mem_nil, or_false] at h
    rcases h with rfl | rfl | rfl | rfl <;> decide +kernel
  exact add_not_nan' (mul_not_nan (ha i) key.1) (mul_finite (hb i) key.2).1

theorem perturb_not_nan {rt : Rt n} (hv : rt.Valid) {p : Problem n} (hp : GoodBounds p) {a b y : Pt n}
    (ha : ∀ i, (a i).isFinite = true) (hb : ∀ i, (b i).isFinite = true) {seed r : Nat}
    (h : perturb rt p a b seed r = some y) (i : Fin n) : (y i).isNaN = false := by
  have := seqPt_some h i
  obtain ⟨u, hu, he⟩ := Option.map_eq_some_iff.1 this
  have hm := hv.uniformExcl_mem _ _ _ _ _ hu
  rw [← he]
  refine add_not_nan' (half_not_nan (add_not_nan (ha i) (hb i))) (mul_finite (hp.width i) ?_).2
  have h1 := (le_iff.1 hm.1).2.2
  have h2 := (lt_iff.1 hm.2).2.2
  have e1 : (F64.lit 1 10).fneg.key = -((F64.lit 1 10).mag : Int) := by decide +kernel
  have e2 : (F64.lit 1 10).key = ((F64.lit 1 10).mag : Int) := by decide +kernel
  have e3 : (F64.lit 1 10).mag ≤ F64.one.mag := by decide +kernel
  rw [e1] at h1
  rw [e2] at h2
  unfold F64.key at h1 h2
  by_cases hn : u.neg = true
  · rw [if_pos hn] at h1 h2; omega
  · rw [if_neg hn] at h1 h2; omega

end Scatter
end GS
