/- How far the computed squared distance is from the exact one. -/
import Verif.F64.Error
import Verif.Model.Types
import Mathlib.Algebra.BigOperators.Fin

namespace GS
open F64

/-- A sum of approximations, added one after the other. -/
theorem within_foldl {m : Nat} {l : List (F64 × ℚ × ℚ)} {x : F64} {lo hi : ℚ}
    (h : ∀ t ∈ l, Within m t.1 t.2.1 t.2.2) (hx : Within m x lo hi) :
    Within (m + l.length) ((l.map (·.1)).foldl F64.add x) (lo + (l.map (·.2.1)).sum)
      (hi + (l.map (·.2.2)).sum) := by
  induction l generalizing m x lo hi with
  | nil => simpa using hx
  | cons t l ih =>
    have h1 := hx.add (h t (by simp))
    have h2 := ih (fun u hu => (h u (by simp [hu])).succ) h1
    simp only [List.map_cons, List.foldl_cons, List.sum_cons, List.length_cons, ← add_assoc] at h2 ⊢
    rw [Nat.add_right_comm] at h2
    exact h2

/-- The eight-lane sum with given lanes. -/
theorem within_sum8Aux {m : Nat} {l : List (F64 × ℚ × ℚ)} {p0 p1 p2 p3 p4 p5 p6 p7 : F64}
    {a0 a1 a2 a3 a4 a5 a6 a7 b0 b1 b2 b3 b4 b5 b6 b7 : ℚ}
    (h0 : Within m p0 a0 b0) (h1 : Within m p1 a1 b1) (h2 : Within m p2 a2 b2) (h3 : Within m p3 a3 b3)
    (h4 : Within m p4 a4 b4) (h5 : Within m p5 a5 b5) (h6 : Within m p6 a6 b6) (h7 : Within m p7 a7 b7)
    (h : ∀ t ∈ l, Within m t.1 t.2.1 t.2.2) :
    Within (m + l.length + 5) (sum8Aux p0 p1 p2 p3 p4 p5 p6 p7 (l.map (·.1)))
      (a0 + a1 + a2 + a3 + a4 + a5 + a6 + a7 + (l.map (·.2.1)).sum)
      (b0 + b1 + b2 + b3 + b4 + b5 + b6 + b7 + (l.map (·.2.2)).sum) := by
  have tail : ∀ (l : List (F64 × ℚ × ℚ)), (∀ t ∈ l, Within m t.1 t.2.1 t.2.2) →
      Within (m + l.length + 5) ((l.map (·.1)).foldl F64.add
        ((((F64.zero.add (p0.add p4)).add (p1.add p5)).add (p2.add p6)).add (p3.add p7)))
      (a0 + a1 + a2 + a3 + a4 + a5 + a6 + a7 + (l.map (·.2.1)).sum)
      (b0 + b1 + b2 + b3 + b4 + b5 + b6 + b7 + (l.map (·.2.2)).sum) := by
    intro l hl
    have e0 := (within_zero (m + 1)).add (h0.add h4)
    have e1 := e0.add (h1.add h5).succ
    have e2 := e1.add (h2.add h6).succ.succ
    have e3 := e2.add (h3.add h7).succ.succ.succ
    have := within_foldl (fun t ht => ((((hl t ht).succ).succ).succ).succ.succ) e3
    have el : 0 + (a0 + a4) + (a1 + a5) + (a2 + a6) + (a3 + a7) =
      a0 + a1 + a2 + a3 + a4 + a5 + a6 + a7 := by ring
    have eh : 0 + (b0 + b4) + (b1 + b5) + (b2 + b6) + (b3 + b7) =
      b0 + b1 + b2 + b3 + b4 + b5 + b6 + b7 := by ring
    rw [el, eh] at this
    have em : m + 1 + 1 + 1 + 1 + 1 + l.length = m + l.length + 5 := by omega
    rw [em] at this
    exact this
  match l, h with
  | t0 :: t1 :: t2 :: t3 :: t4 :: t5 :: t6 :: t7 :: rest, h =>
    simp only [List.map_cons]
    rw [sum8Aux]
    have := within_sum8Aux (l := rest) (h0.add (h t0 (by simp))) (h1.add (h t1 (by simp)))
      (h2.add (h t2 (by simp))) (h3.add (h t3 (by simp))) (h4.add (h t4 (by simp)))
      (h5.add (h t5 (by simp))) (h6.add (h t6 (by simp))) (h7.add (h t7 (by simp)))
      (fun t ht => (h t (by simp [ht])).succ)
    have this := this.mono (k := m + (rest.length + 8) + 5) (by omega)
    simp only [List.length_cons, List.sum_cons]
    convert this using 1 <;> ring
  | [], h | [_], h | [_, _], h | [_, _, _], h | [_, _, _, _], h | [_, _, _, _, _], h
  | [_, _, _, _, _, _], h | [_, _, _, _, _, _, _], h => exact tail _ h
termination_by l.length

/-- The computed squared distance of points with finite coordinates. -/
theorem within_dist2 {n : Nat} {a b : Pt n} (ha : ∀ i, (a i).isFinite = true)
    (hb : ∀ i, (b i).isFinite = true) :
    Within (n + 8) (dist2 a b) ((∑ i, ((a i).sv - (b i).sv) ^ 2 / scale) - n)
      ((∑ i, ((a i).sv - (b i).sv) ^ 2 / scale) + n / 2) := by
  have hz := within_zero 3
  have key := within_sum8Aux (l := List.ofFn fun i =>
    (((a i).sub (b i)).mul ((a i).sub (b i)), ((a i).sv - (b i).sv) ^ 2 / scale - 1,
      ((a i).sv - (b i).sv) ^ 2 / scale + 1 / 2)) hz hz hz hz hz hz hz hz (by
        intro t ht
        rw [List.mem_ofFn] at ht
        obtain ⟨i, rfl⟩ := ht
        exact within_sq (ha i) (hb i))
  simp only [List.map_ofFn, List.length_ofFn, List.sum_ofFn, Function.comp_def, Finset.sum_sub_distrib,
    Finset.sum_add_distrib, Finset.sum_const, Finset.card_univ, Fintype.card_fin, nsmul_eq_mul,
    add_zero, zero_add, mul_one] at key
  have e : 3 + n + 5 = n + 8 := by omega
  rw [e] at key
  unfold dist2 sum8
  convert key using 2
  ring

end GS
