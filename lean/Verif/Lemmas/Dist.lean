/- Facts about the computed squared distance. -/
import Verif.F64.Round
import Verif.Model.Types

namespace GS
open F64

theorem sub_self_finite {x : F64} (h : x.isFinite = true) : x.sub x = F64.zero := by
  have h1 := fin_not_nan h
  have h2 := fin_not_inf h
  have h3 : x.toInt + (fneg x).toInt = 0 := by rw [fneg_toInt]; omega
  have h4 : (x.neg && (fneg x).neg) = false := by
    simp [fneg]
  simp [sub, add, h1, h2, h3, h4]

theorem mul_zero_zero : F64.zero.mul F64.zero = F64.zero := by decide +kernel

theorem add_zero_zero : F64.zero.add F64.zero = F64.zero := by decide

theorem foldl_add_zero (l : List F64) (h : ∀ x ∈ l, x = F64.zero) :
    l.foldl F64.add F64.zero = F64.zero := by
  induction l with
  | nil => rfl
  | cons a l ih =>
    have ha : a = F64.zero := h a (by simp)
    simp only [List.foldl_cons, ha, add_zero_zero]
    exact ih fun x hx => h x (by simp [hx])

theorem sum8_zero (l : List F64) (h : ∀ x ∈ l, x = F64.zero) : sum8 l = F64.zero := by
  unfold sum8
  have key : ∀ (k : Nat) (l : List F64), l.length ≤ k → (∀ x ∈ l, x = F64.zero) →
      sum8Aux F64.zero F64.zero F64.zero F64.zero F64.zero F64.zero F64.zero F64.zero l
        = F64.zero := by
    intro k
    induction k with
    | zero =>
      intro l hl _
      have : l = [] := List.length_eq_zero_iff.mp (by omega)
      subst this
      simp [sum8Aux, add_zero_zero]
    | succ k ih =>
      intro l hl h
      match l, h, hl with
      | a0 :: a1 :: a2 :: a3 :: a4 :: a5 :: a6 :: a7 :: rest, h, hl =>
        rw [sum8Aux]
        simp only [h a0 (by simp), h a1 (by simp), h a2 (by simp), h a3 (by simp),
          h a4 (by simp), h a5 (by simp), h a6 (by simp), h a7 (by simp), add_zero_zero]
        refine ih rest ?_ fun x hx => h x (by simp [hx])
        simp only [List.length_cons] at hl
        omega
      | [], h, _ => simp [sum8Aux, add_zero_zero]
      | [_], h, _ | [_, _], h, _ | [_, _, _], h, _ | [_, _, _, _], h, _ | [_, _, _, _, _], h, _
      | [_, _, _, _, _, _], h, _ | [_, _, _, _, _, _, _], h, _ =>
        simp only [sum8Aux, add_zero_zero]
        exact foldl_add_zero _ h
  exact key l.length l (Nat.le_refl _) h

/-- A point with finite coordinates has computed distance zero to itself. -/
theorem dist2_self {n : Nat} {p : Pt n} (h : ∀ i, (p i).isFinite = true) :
    dist2 p p = F64.zero := by
  unfold dist2
  apply sum8_zero
  intro x hx
  rw [List.mem_ofFn] at hx
  obtain ⟨i, hi⟩ := hx
  rw [← hi]
  simp [sub_self_finite (h i), mul_zero_zero]

/-- A square is never below zero. -/
theorem zero_le_sq {x : F64} (h : (x.mul x).isNaN = false) : F64.le F64.zero (x.mul x) = true := by
  have hz : (F64.zero).isNaN = false := by decide
  rw [le_iff]
  refine ⟨hz, h, ?_⟩
  have : (x.mul x).neg = false := by
    unfold F64.mul
    simp only [bne_self_eq_false]
    repeat' split
    all_goals rfl
  have hk : F64.zero.key = 0 := by decide
  rw [hk, F64.key, this]
  simp

theorem not_gt_zero_sq (x : F64) : F64.gt F64.zero (x.mul x) = false := by
  unfold F64.gt
  by_cases h : (x.mul x).isNaN = true
  · simp [F64.lt, h]
  · have h' : (x.mul x).isNaN = false := by simpa using h
    exact not_lt_of_le (zero_le_sq h')

end GS
