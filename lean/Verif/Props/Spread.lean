/- C109: the diversity test for trial points in exact arithmetic, up to rounding. -/
import Verif.Props.Combine

namespace GS.Props
open GS GS.F64
variable {n : Nat}

/-! ### Specification -/

/-- Number of neighbouring pairs that are sampled. -/
def sampleSize (len : Nat) : Nat := Nat.min (Nat.max (Nat.sqrt len) 2) len

/-- Exact squared distance of the `i`-th point and the next one, the first following the last. -/
def gapSq (ref : List (Pt n)) (i : Nat) : ℚ :=
  match ref[i]?, ref[(i + 1) % ref.length]? with
  | some a, some b => exactSq a b
  | _, _ => 0

/-- Average of the first `sampleSize` squared distances of neighbours. -/
def typicalSq (ref : List (Pt n)) : ℚ :=
  ((List.range (sampleSize ref.length)).map (gapSq ref)).sum / sampleSize ref.length

/-- Relative rounding error of the test. -/
def spreadErr (n k : Nat) : ℚ := (2 * n + k + 19) / 2 ^ 53

/-- The squared distance is at least a tenth of the typical one, up to rounding. -/
def Apart (ref : List (Pt n)) (x y : Pt n) : Prop :=
  (1 - spreadErr n (sampleSize ref.length)) * (typicalSq ref / 10) - (n + 1) / 2 ^ 1074 ≤ exactSq x y

/-- The squared distance is at most a tenth of the typical one, up to rounding. -/
def Beside (ref : List (Pt n)) (x y : Pt n) : Prop :=
  (1 - spreadErr n (sampleSize ref.length)) * exactSq x y ≤ typicalSq ref / 10 + (2 * n + 1) / 2 ^ 1074

/-! ### Proofs -/

theorem zero_add' {y : F64} (hp : y.neg = false) (hn : y.isNaN = false) : F64.zero.add y = y := by
  have z1 : F64.zero.isNaN = false := by decide
  have z2 : F64.zero.isInf = false := by decide
  have z3 : F64.zero.toInt = 0 := by decide
  rcases class_cases y with ⟨hc, _⟩ | ⟨_, hc, _⟩ | ⟨_, hc, hf⟩
  · rw [hn] at hc; cases hc
  · unfold F64.add
    simp [z1, z2, hn, hc]
  · unfold F64.add
    simp only [z1, z2, hn, hc, z3, Bool.or_self, Bool.false_eq_true, if_false, Int.zero_add]
    have ht : y.toInt = (uval y.mag : Int) := by unfold toInt; simp [hp]
    rw [ht]
    split
    · rename_i h0
      have : y.mag = 0 := by
        by_contra h
        have := uval_lt_iff.2 (Nat.pos_of_ne_zero h)
        omega
      rw [if_neg (by simp [hp])]
      cases y
      simp_all [zero]
    · unfold roundZ
      have h1 := roundMag_uval y.mag 1 one_pos
      rw [one_mul] at h1
      rw [Int.natAbs_natCast, h1]
      have hm : y.mag < infMag := isFinite_iff.1 hf
      have hneg : decide ((uval y.mag : Int) < 0) = false := decide_eq_false (by omega)
      rw [hneg]
      have e1 := mkRound_mag false y.mag
      have e2 := mkRound_neg false y.mag
      have e3 : Nat.min y.mag infMag = y.mag := Nat.min_eq_left hm.le
      rw [e3] at e1
      generalize mkRound false y.mag = w at *
      cases w
      cases y
      simp_all

theorem add_zero' {y : F64} (hp : y.neg = false) (hn : y.isNaN = false) : y.add F64.zero = y := by
  have z1 : F64.zero.isNaN = false := by decide
  have z2 : F64.zero.isInf = false := by decide
  have z3 : F64.zero.neg = false := by decide
  have h : y.add F64.zero = F64.zero.add y := by
    unfold F64.add
    cases hi : y.isInf <;> simp [hn, z1, z2, z3, hp, Int.add_comm]
  rw [h, zero_add' hp hn]

theorem Within.eq_zero {m : Nat} {x : F64} {lo : ℚ} (h : Within m x lo 0) : x = F64.zero := by
  have h1 := h.upper
  rw [mul_zero] at h1
  have h2 : x.av = 0 := le_antisymm h1 (av_nonneg x)
  unfold av at h2
  have h3 : uval x.mag = 0 := by exact_mod_cast h2
  have h4 : x.mag = 0 := by
    by_contra hc
    have := uval_lt_iff.2 (Nat.pos_of_ne_zero hc)
    omega
  have h5 := h.pos
  cases x
  simp_all [zero]

theorem within_reduce (sp : Split) : ∀ {m : Nat} {l : List (F64 × ℚ × ℚ)}, (∀ t ∈ l, Within m t.1 t.2.1 t.2.2) →
    Within (m + l.length) (sp.reduce (fun l => l.foldl F64.add F64.zero) F64.add (l.map (·.1)))
      (l.map (·.2.1)).sum (l.map (·.2.2)).sum := by
  induction sp with
  | leaf =>
    intro m l h
    have := within_foldl h (within_zero m)
    rw [zero_add, zero_add] at this
    exact this
  | node k a b iha ihb =>
    intro m l h
    have h1 := iha (m := m) (l := l.take k) fun t ht => h t (List.mem_of_mem_take ht)
    have h2 := ihb (m := m) (l := l.drop k) fun t ht => h t (List.mem_of_mem_drop ht)
    have hs : ∀ f : F64 × ℚ × ℚ → ℚ, (l.map f).sum = ((l.take k).map f).sum + ((l.drop k).map f).sum := by
      intro f
      rw [← List.sum_append, ← List.map_append, List.take_append_drop]
    have hl : l.length = (l.take k).length + (l.drop k).length := by
      rw [← List.length_append, List.take_append_drop]
    unfold Split.reduce
    rw [hs, hs, ← List.map_take, ← List.map_drop]
    generalize l.take k = l1 at *
    generalize l.drop k = l2 at *
    cases l1 with
    | nil =>
      rw [Within.eq_zero h1, zero_add' h2.pos h2.num, hl]
      simpa using h2
    | cons t1 l1 =>
      cases l2 with
      | nil =>
        rw [Within.eq_zero h2, add_zero' h1.pos h1.num, hl]
        simpa using h1
      | cons t2 l2 =>
        have := (h1.mono (k := m + (l1.length + l2.length + 1)) (by simp)).add
          (h2.mono (k := m + (l1.length + l2.length + 1)) (by simp))
        rw [hl]
        simpa [Nat.add_assoc, Nat.add_comm, Nat.add_left_comm] using this

/-- The sampled distances with their exact bounds. -/
theorem within_sampled {ref : List (Pt n)} (hsz : ref.length < 2 ^ 52) (h2 : 2 ≤ ref.length)
    (hf : ∀ a ∈ ref, FinitePt a) (par : Bool) (sp : Split) :
    Within (n + 8 + sampleSize ref.length) (Scatter.sumDists par sp (Scatter.sampledDists ref))
      (scale * ((List.range (sampleSize ref.length)).map (gapSq ref)).sum - sampleSize ref.length * n)
      (scale * ((List.range (sampleSize ref.length)).map (gapSq ref)).sum + sampleSize ref.length * (n / 2)) := by
  have hk : Scatter.kOf ref.length = sampleSize ref.length := kOf_eq hsz
  have hkl : sampleSize ref.length ≤ ref.length := Nat.min_le_right _ _
  generalize hK : sampleSize ref.length = K at *
  have hget : ∀ i, i < K → ∃ a b, ref[i]? = some a ∧ ref[(i + 1) % ref.length]? = some b := by
    intro i hi
    exact ⟨_, _, List.getElem?_eq_getElem (show i < ref.length by omega),
      List.getElem?_eq_getElem (Nat.mod_lt _ (by omega))⟩
  let item : Nat → F64 × ℚ × ℚ := fun i =>
    match ref[i]?, ref[(i + 1) % ref.length]? with
    | some a, some b => (dist2 a b, scale * exactSq a b - n, scale * exactSq a b + n / 2)
    | _, _ => (F64.zero, 0, 0)
  have hitem : ∀ i, i < K → Within (n + 8) (item i).1 (item i).2.1 (item i).2.2 ∧
      (item i).2.1 = scale * gapSq ref i - n ∧ (item i).2.2 = scale * gapSq ref i + n / 2 := by
    intro i hi
    obtain ⟨a, b, ha, hb⟩ := hget i hi
    have hw := within_dist2 (hf a (List.mem_of_getElem? ha)) (hf b (List.mem_of_getElem? hb))
    rw [exactSq_units] at hw
    simp only [item, gapSq, ha, hb]
    exact ⟨hw, trivial, trivial⟩
  have hsd : Scatter.sampledDists ref = ((List.range K).map item).map (·.1) := by
    unfold Scatter.sampledDists
    rw [hk, List.map_map, ← List.filterMap_eq_map]
    refine List.filterMap_congr fun i hi => ?_
    obtain ⟨a, b, ha, hb⟩ := hget i (List.mem_range.1 hi)
    simp only [item, ha, hb, Function.comp]
  have hw : ∀ t ∈ (List.range K).map item, Within (n + 8) t.1 t.2.1 t.2.2 := by
    intro t ht
    obtain ⟨i, hi, rfl⟩ := List.mem_map.1 ht
    exact (hitem i (List.mem_range.1 hi)).1
  have hsum : ∀ (L : List Nat), (∀ i ∈ L, i < K) →
      ((L.map item).map (·.2.1)).sum = scale * (L.map (gapSq ref)).sum - L.length * n ∧
      ((L.map item).map (·.2.2)).sum = scale * (L.map (gapSq ref)).sum + L.length * (n / 2) := by
    intro L
    induction L with
    | nil => intro _; simp
    | cons i L ih =>
      intro h
      obtain ⟨i1, i2⟩ := ih fun j hj => h j (List.mem_cons_of_mem _ hj)
      obtain ⟨_, g1, g2⟩ := hitem i (h i List.mem_cons_self)
      simp only [List.map_cons, List.sum_cons, List.length_cons, Nat.cast_add, Nat.cast_one]
      rw [i1, i2, g1, g2]
      constructor <;> ring
  obtain ⟨e1, e2⟩ := hsum (List.range K) fun i hi => List.mem_range.1 hi
  rw [List.length_range] at e1 e2
  rw [hsd, ← e1, ← e2]
  have hlen : ((List.range K).map item).length = K := by simp
  unfold Scatter.sumDists
  split
  · have := within_reduce sp hw
    rw [hlen] at this
    exact this
  · have := within_reduce .leaf hw
    rw [hlen] at this
    exact this

theorem ofNat_val {k : Nat} (h0 : 0 < k) (h : k < 2 ^ 52) :
    (F64.ofNat k).isFinite = true ∧ realVal (F64.ofNat k) = k ∧ (F64.ofNat k).mag ≠ 0 := by
  obtain ⟨M, hM, hMi, _⟩ := exists_mag k h0 (by omega)
  have hs := scale_q_pos
  have hmag : (F64.ofNat k).mag = M ∧ (F64.ofNat k).neg = false := by
    unfold ofNat lit
    rw [← hM]
    have := roundMag_uval M 1 (by decide)
    rw [Nat.one_mul] at this
    rw [this]
    exact ⟨by rw [mkRound_mag]; exact Nat.min_eq_left hMi.le, mkRound_neg _ _⟩
  refine ⟨isFinite_iff.2 (by rw [hmag.1]; exact hMi), ?_, ?_⟩
  · unfold realVal toInt
    rw [hmag.1, hmag.2, ← scale_rat]
    simp only [Bool.false_eq_true, if_false]
    rw [hM]
    push_cast
    field_simp
  · rw [hmag.1]
    intro h
    rw [h] at hM
    have := Nat.mul_pos h0 scale_pos
    have hz : uval 0 = 0 := by decide
    omega

theorem tenth_bounds : (F64.lit 1 10).isFinite = true ∧ 1 / 10 ≤ realVal (F64.lit 1 10) ∧
    realVal (F64.lit 1 10) ≤ (1 + uro) / 10 := by
  have h : 2 ^ 1074 ≤ 10 * (F64.lit 1 10).toInt ∧ 10 * 2 ^ 53 * (F64.lit 1 10).toInt ≤ (2 ^ 53 + 1) * 2 ^ 1074 := by
    decide +kernel
  have h1 : (2 : ℚ) ^ 1074 ≤ 10 * ((F64.lit 1 10).toInt : ℚ) := by exact_mod_cast h.1
  have h2 : (10 : ℚ) * 2 ^ 53 * ((F64.lit 1 10).toInt : ℚ) ≤ (2 ^ 53 + 1) * 2 ^ 1074 := by exact_mod_cast h.2
  have hc : (0 : ℚ) < 2 ^ 1074 := pow_pos (by norm_num) _
  unfold realVal uro
  generalize (2 : ℚ) ^ 1074 = c at *
  refine ⟨by decide +kernel, ?_, ?_⟩
  · rw [le_div_iff₀ hc]; linarith
  · rw [div_le_iff₀ hc]
    norm_num at h2 ⊢
    linarith

theorem av_val {x : F64} (h : x.neg = false) : x.av = realVal x * scale := by
  rw [← sv_of_pos h, sv_eq]

theorem val_nonneg {x : F64} (h : x.neg = false) : 0 ≤ realVal x := by
  have h1 := av_val h
  have h2 := av_nonneg x
  rw [h1] at h2
  exact nonneg_of_mul_nonneg_left h2 scale_q_pos

theorem finite_of {x : F64} (hn : x.isNaN = false) (hi : x.isInf = false) : x.isFinite = true := by
  rcases class_cases x with ⟨hc, _⟩ | ⟨_, hc, _⟩ | ⟨_, _, hf⟩
  · rw [hn] at hc; cases hc
  · rw [hi] at hc; cases hc
  · exact hf

theorem val_lt_top {x : F64} (h : x.isFinite = true) (hp : x.neg = false) : realVal x ≤ 2 * top := by
  have h1 : x.av ≤ uval infMag := by
    unfold av
    exact_mod_cast uval_le_iff.2 (isFinite_iff.1 h).le
  rw [av_val hp, uval_inf] at h1
  exact le_of_mul_le_mul_right h1 scale_q_pos

/-- A tenth of the average, from the sum. -/
theorem tenth_mean {S : F64} (hS : S.isFinite = true) (hp : S.neg = false) {k : Nat} (h2 : 2 ≤ k) (hk : k < 2 ^ 52) :
    ((S.div (F64.ofNat k)).mul (F64.lit 1 10)).isFinite = true ∧
    (1 - uro) ^ 2 * (realVal S / k / 10) - 5 / 4 * eta ≤ realVal ((S.div (F64.ofNat k)).mul (F64.lit 1 10)) ∧
    realVal ((S.div (F64.ofNat k)).mul (F64.lit 1 10)) ≤ (1 + uro) ^ 3 * (realVal S / k / 10) + 5 / 4 * eta := by
  obtain ⟨kf, kv, k0⟩ := ofNat_val (by omega : 0 < k) hk
  obtain ⟨cf, c1, c2⟩ := tenth_bounds
  have hk2 : (2 : ℚ) ≤ k := by exact_mod_cast h2
  have hS0 := val_nonneg hp
  have hST := val_lt_top hS hp
  have ht := one_le_top
  have he := eta_le
  have he0 := eta_pos
  have hq0 : 0 ≤ realVal S / k := div_nonneg hS0 (by linarith)
  have hqT : realVal S / k ≤ top := by
    rw [div_le_iff₀ (by linarith)]
    have : 2 * top ≤ top * k := by
      rw [mul_comm]; exact mul_le_mul_of_nonneg_left hk2 (by linarith)
    linarith
  obtain ⟨f1, m1⟩ := div_approx hS kf k0 (by rw [kv, abs_of_nonneg hq0]; exact hqT)
  rw [kv, abs_of_nonneg hq0] at m1
  generalize hQ : realVal S / k = Q at *
  rw [abs_le] at m1
  have u0 := uro_pos
  have u1 : uro ≤ 1 / 100 := by rw [uro_num]; norm_num
  generalize S.div (F64.ofNat k) = q at *
  generalize hc : realVal (F64.lit 1 10) = c at *
  generalize hv : realVal q = v at *
  have hQ1 : uro * Q ≤ 1 / 100 * Q := mul_le_mul_of_nonneg_right u1 hq0
  have hcb : c ≤ 101 / 1000 := by linarith
  have vT : v ≤ 2 * top := by linarith
  have vl : -eta ≤ v := by linarith
  have habs : |v * c| ≤ top := by
    rw [abs_mul, abs_of_nonneg (by linarith : 0 ≤ c)]
    have h1 : |v| ≤ 2 * top := abs_le.2 ⟨by linarith, vT⟩
    have := mul_le_mul h1 hcb (by linarith) (by linarith)
    linarith
  obtain ⟨f2, m2⟩ := mul_approx f1 cf (by rw [hc, hv]; exact habs)
  rw [hc, hv] at m2
  rw [abs_le] at m2
  refine ⟨f2, ?_, ?_⟩
  · have hlow : (1 - uro) * (v * c) - eta ≤ realVal (q.mul (F64.lit 1 10)) ∨ v < 0 := by
      rcases lt_or_ge v 0 with h | h
      · exact .inr h
      · rw [abs_of_nonneg (mul_nonneg h (by linarith))] at m2
        exact .inl (by linarith)
    have hvl : (1 - uro) * Q - eta ≤ v := by linarith
    rcases hlow with hlow | hneg
    · have h1 : ((1 - uro) * Q - eta) * c ≤ v * c := mul_le_mul_of_nonneg_right hvl (by linarith)
      have h2 : (1 - uro) * Q * (1 / 10) ≤ (1 - uro) * Q * c :=
        mul_le_mul_of_nonneg_left c1 (mul_nonneg (by linarith) hq0)
      have h3 : eta * c ≤ eta * (101 / 1000) := mul_le_mul_of_nonneg_left hcb he0.le
      have h4 : (1 - uro) * ((1 - uro) * Q * (1 / 10) - eta * (101 / 1000)) ≤ (1 - uro) * (v * c) :=
        mul_le_mul_of_nonneg_left (by linarith) (by linarith)
      have h5 : 0 ≤ uro * eta := mul_nonneg u0.le he0.le
      have e : (1 - uro) * ((1 - uro) * Q * (1 / 10) - eta * (101 / 1000)) =
        (1 - uro) ^ 2 * (Q / 10) - (eta * (101 / 1000) - uro * eta * (101 / 1000)) := by ring
      linarith
    · -- the quotient is not negative
      have h1 : (1 - uro) * Q ≤ eta := by linarith
      have h2 : (1 - uro) ^ 2 * (Q / 10) ≤ eta / 10 := by
        have e : (1 - uro) ^ 2 * (Q / 10) = (1 - uro) * ((1 - uro) * Q) / 10 := by ring
        rw [e]
        have : (1 - uro) * ((1 - uro) * Q) ≤ 1 * eta :=
          mul_le_mul (by linarith) h1 (mul_nonneg (by linarith) hq0) (by norm_num)
        linarith
      have h3 : |v * c| ≤ eta * (101 / 1000) := by
        rw [abs_mul, abs_of_nonneg (by linarith : 0 ≤ c)]
        exact mul_le_mul (abs_le.2 ⟨vl, by linarith⟩) hcb (by linarith) he0.le
      have h4 : uro * |v * c| ≤ 1 / 100 * (eta * (101 / 1000)) :=
        mul_le_mul u1 h3 (abs_nonneg _) (by norm_num)
      have h5 := (abs_le.1 h3).1
      linarith
  · have hvu : v ≤ (1 + uro) * Q + eta := by linarith
    have habs2 : |v * c| ≤ ((1 + uro) * Q + eta) * c := by
      rw [abs_mul, abs_of_nonneg (by linarith : 0 ≤ c)]
      have hn : 0 ≤ (1 + uro) * Q := mul_nonneg (by linarith) hq0
      exact mul_le_mul_of_nonneg_right (abs_le.2 ⟨by linarith, hvu⟩) (by linarith)
    have h1 : realVal (q.mul (F64.lit 1 10)) ≤ (1 + uro) * |v * c| + eta := by
      have := le_abs_self (v * c)
      linarith
    have h2 : (1 + uro) * |v * c| ≤ (1 + uro) * (((1 + uro) * Q + eta) * c) :=
      mul_le_mul_of_nonneg_left habs2 (by linarith)
    have h3 : ((1 + uro) * Q + eta) * c ≤ ((1 + uro) * Q + eta) * ((1 + uro) / 10) :=
      mul_le_mul_of_nonneg_left c2 (by
        have hn : 0 ≤ (1 + uro) * Q := mul_nonneg (by linarith) hq0
        linarith)
    have h4 : (1 + uro) * (((1 + uro) * Q + eta) * c) ≤ (1 + uro) * (((1 + uro) * Q + eta) * ((1 + uro) / 10)) :=
      mul_le_mul_of_nonneg_left h3 (by linarith)
    have e : (1 + uro) * (((1 + uro) * Q + eta) * ((1 + uro) / 10)) =
        (1 + uro) ^ 3 * (Q / 10) + (1 + uro) ^ 2 * (eta / 10) := by ring
    have h5 : (1 + uro) ^ 2 ≤ 2 := by
      have : (1 + uro) ^ 2 = 1 + 2 * uro + uro * uro := by ring
      have h6 : uro * uro ≤ 1 / 100 * (1 / 100) := mul_le_mul u1 u1 u0.le (by norm_num)
      linarith
    have h6 : (1 + uro) ^ 2 * (eta / 10) ≤ 2 * (eta / 10) := mul_le_mul_of_nonneg_right h5 (by linarith)
    linarith

theorem mul_inf_tenth {x : F64} (h : x.isInf = true) (hp : x.neg = false) {k : Nat} (h0 : 0 < k) (hk : k < 2 ^ 52) :
    ((x.div (F64.ofNat k)).mul (F64.lit 1 10)) = F64.inf := by
  obtain ⟨kf, kv, k0⟩ := ofNat_val h0 hk
  have hkn : (F64.ofNat k).neg = false := mkRound_neg _ _
  have hx : x = F64.inf := by
    have := isInf_iff.1 h
    cases x
    simp_all [inf]
  subst hx
  have hd : F64.inf.div (F64.ofNat k) = F64.inf := by
    unfold F64.div
    simp only [fin_not_nan kf, fin_not_inf kf, hkn, show F64.inf.isNaN = false by decide,
      show F64.inf.isInf = true by decide, Bool.or_self, Bool.false_eq_true, if_false, if_true]
    decide
  rw [hd]
  decide +kernel

theorem gapSq_nonneg (ref : List (Pt n)) (i : Nat) : 0 ≤ gapSq ref i := by
  unfold gapSq
  split
  · exact exactSq_nonneg _ _
  · exact le_refl _

theorem typicalSq_nonneg (ref : List (Pt n)) : 0 ≤ typicalSq ref := by
  refine div_nonneg (List.sum_nonneg fun x hx => ?_) (Nat.cast_nonneg _)
  obtain ⟨i, _, rfl⟩ := List.mem_map.1 hx
  exact gapSq_nonneg ref i

theorem eta_two (c : ℚ) : c / 2 ^ 1074 = 2 * c * eta := by
  unfold eta
  rw [show (2 : ℚ) ^ 1075 = 2 * 2 ^ 1074 by rw [← pow_succ']]
  have : (2 : ℚ) ^ 1074 ≠ 0 := pow_ne_zero _ (by norm_num)
  generalize (2 : ℚ) ^ 1074 = c at *
  field_simp

theorem spreadErr_eq (n k : Nat) : spreadErr n k = ((2 * n + k + 19 : Nat) : ℚ) * uro := by
  unfold spreadErr uro
  push_cast
  ring

theorem pow_nonneg_sub (m : Nat) : 0 ≤ (1 - uro) ^ m := pow_nonneg one_sub_uro_nonneg m

/-- Bounds on a non-negative number from bounds in units. -/
theorem within_vals {m : Nat} {x : F64} {A c d : ℚ} (h : Within m x (scale * A - c) (scale * A + d)) :
    x.av ≤ (1 + uro) ^ m * (A + 2 * d * eta) * scale ∧
    (x.isInf = true ∨ (1 - uro) ^ m * (A - 2 * c * eta) * scale ≤ x.av) := by
  have e : ∀ c : ℚ, c = 2 * c * eta * scale := by
    intro c
    have := eta_units
    rw [mul_assoc, this]; ring
  refine ⟨h.upper.trans (le_of_eq ?_), h.lower.imp_right fun h => le_trans (le_of_eq ?_) h⟩
  · rw [mul_assoc, add_mul, ← e]; ring
  · rw [mul_assoc, sub_mul, ← e]; ring

theorem val_of_lt {x y : F64} (h : F64.lt x y = true) (hy : y.neg = false) : realVal x * scale ≤ y.av := by
  cases hx : x.neg with
  | false =>
    rw [← av_val hx]
    exact av_le_of_key hx hy (lt_iff.1 h).2.2.le
  | true =>
    rw [← sv_eq]
    refine le_trans ?_ (av_nonneg y)
    unfold sv toInt
    simp only [hx, if_true]
    push_cast
    have : (0 : ℚ) ≤ uval x.mag := Nat.cast_nonneg _
    linarith

theorem sampleSize_two {len : Nat} (h : 2 ≤ len) : 2 ≤ sampleSize len :=
  Nat.le_min.2 ⟨Nat.le_max_right _ _, h⟩

theorem sampleSize_le (len : Nat) : sampleSize len ≤ len := Nat.min_le_right _ _

/-- Sum of the sampled distances. -/
theorem sum_bounds {ref : List (Pt n)} (hsz : ref.length < 2 ^ 52) (h2 : 2 ≤ ref.length)
    (hf : ∀ a ∈ ref, FinitePt a) (par : Bool) (sp : Split) :
    ∃ S, S = Scatter.sumDists par sp (Scatter.sampledDists ref) ∧ S.isNaN = false ∧ S.neg = false ∧
      S.av ≤ (1 + uro) ^ (n + 8 + sampleSize ref.length) * (typicalSq ref + n * eta) * sampleSize ref.length * scale ∧
      (S.isInf = true ∨ (1 - uro) ^ (n + 8 + sampleSize ref.length) * (typicalSq ref - 2 * n * eta) ≤
        realVal S / sampleSize ref.length) := by
  have hw := within_sampled hsz h2 hf par sp
  have hK := sampleSize_two h2
  refine ⟨_, rfl, hw.num, hw.pos, ?_⟩
  obtain ⟨v1, v2⟩ := within_vals hw
  have hKq : (0 : ℚ) < sampleSize ref.length := by exact_mod_cast (by omega : 0 < sampleSize ref.length)
  have ht : ((List.range (sampleSize ref.length)).map (gapSq ref)).sum = typicalSq ref * sampleSize ref.length := by
    unfold typicalSq
    field_simp
  rw [ht] at v1 v2
  refine ⟨v1.trans (le_of_eq (by ring)), v2.imp_right fun h => ?_⟩
  rw [av_val hw.pos] at h
  have h := le_of_mul_le_mul_right h scale_q_pos
  rw [le_div_iff₀ hKq]
  exact le_trans (le_of_eq (by ring)) h

theorem apart_of_gt {ref : List (Pt n)} (hsz : ref.length < 2 ^ 52) (hf : ∀ a ∈ ref, FinitePt a) {par : Bool}
    {sp : Split} {x y : Pt n} (hx : FinitePt x) (hy : y ∈ ref)
    (h : F64.gt (dist2 x y) (Scatter.distThreshold par sp ref) = true) : Apart ref x y := by
  have hD := exactSq_nonneg x y
  have he0 := eta_pos
  have hT := typicalSq_nonneg ref
  unfold Apart
  rw [eta_two]
  rcases lt_or_ge ref.length 2 with hl | h2
  · obtain ⟨a, rfl⟩ : ∃ a, ref = [a] := by
      match ref, hy, hl with
      | [a], _, _ => exact ⟨a, rfl⟩
    have : typicalSq [a] = 0 := by
      have : exactSq a a = 0 := by unfold exactSq; simp
      simp [typicalSq, sampleSize, gapSq, this]
    rw [this]
    have : 0 ≤ 2 * ((n : ℚ) + 1) * eta := mul_nonneg (by positivity) he0.le
    linarith
  · obtain ⟨S, hS, hnum, hpos, -, hlow⟩ := sum_bounds hsz h2 hf par sp
    have hk := kOf_eq hsz
    have hK2 := sampleSize_two h2
    have hK52 : sampleSize ref.length < 2 ^ 52 := lt_of_le_of_lt (sampleSize_le _) hsz
    have hthr : Scatter.distThreshold par sp ref = (S.div (F64.ofNat (sampleSize ref.length))).mul (F64.lit 1 10) := by
      unfold Scatter.distThreshold
      rw [if_neg (by omega), ← hS, hk]
      rfl
    rw [hthr] at h
    have hw := within_dist2 hx (hf y hy)
    rw [exactSq_units] at hw
    have hd := (within_vals hw).1
    have hdp := hw.pos
    have hdn := hw.num
    cases hi : S.isInf with
    | true =>
      exfalso
      rw [mul_inf_tenth hi hpos (by omega) hK52] at h
      unfold F64.gt at h
      have := (lt_iff.1 h).2.2
      have hnn := hdn
      unfold isNaN at hnn
      unfold key at this
      rw [hdp] at this
      have e1 : F64.inf.neg = false := by decide
      have e2 : F64.inf.mag = infMag := by decide
      simp only [e1, e2, Bool.false_eq_true, if_false] at this
      have hnn := of_decide_eq_false hnn
      omega
    | false =>
      have hfin := finite_of hnum hi
      obtain ⟨_, t1, _⟩ := tenth_mean hfin hpos hK2 hK52
      have hlow := hlow.resolve_left (by rw [hi]; exact Bool.false_ne_true)
      have hv := (val_of_lt h hdp).trans hd
      have hv := le_of_mul_le_mul_right hv scale_q_pos
      rw [spreadErr_eq]
      generalize realVal ((S.div (F64.ofNat (sampleSize ref.length))).mul (F64.lit 1 10)) = t at *
      generalize realVal S / (sampleSize ref.length : ℚ) = Q at *
      generalize sampleSize ref.length = K at *
      generalize typicalSq ref = T at *
      generalize exactSq x y = D at *
      have hn : (0 : ℚ) ≤ n := Nat.cast_nonneg n
      have hne : 0 ≤ (n : ℚ) * eta := mul_nonneg hn he0.le
      -- multiply by `(1 - u)^(n + 8)`
      have a0 := pow_nonneg_sub (n + 8)
      have a1 := pow_sub_le_one (n + 8)
      have h1 := mul_le_mul_of_nonneg_left hv a0
      have h2 : (1 - uro) ^ (n + 8) * ((1 + uro) ^ (n + 8) * (D + 2 * (↑n / 2) * eta)) ≤ 1 * (D + n * eta) := by
        rw [← mul_assoc, show 2 * ((n : ℚ) / 2) * eta = n * eta by ring]
        exact mul_le_mul_of_nonneg_right (pow_mul_pow_le _) (by linarith)
      have h3 := mul_le_mul_of_nonneg_left t1 a0
      have h4 : (1 - uro) ^ 2 * ((1 - uro) ^ (n + 8 + K) * (T - 2 * n * eta)) ≤ (1 - uro) ^ 2 * Q :=
        mul_le_mul_of_nonneg_left hlow (pow_nonneg_sub 2)
      have h5 := mul_le_mul_of_nonneg_left h4 a0
      have e5 : (1 - uro) ^ (n + 8) * ((1 - uro) ^ 2 * ((1 - uro) ^ (n + 8 + K) * (T - 2 * n * eta))) =
          (1 - uro) ^ (2 * n + K + 18) * T - (1 - uro) ^ (2 * n + K + 18) * (2 * (n * eta)) := by
        rw [show 2 * n + K + 18 = (n + 8) + (2 + (n + 8 + K)) by omega, pow_add, pow_add]
        ring
      rw [e5] at h5
      have h6 : (1 - uro) ^ (2 * n + K + 18) * (2 * (n * eta)) ≤ 1 * (2 * (n * eta)) :=
        mul_le_mul_of_nonneg_right (pow_sub_le_one _) (by linarith)
      have h7 : (1 - ((2 * n + K + 18 : Nat) : ℚ) * uro) * T ≤ (1 - uro) ^ (2 * n + K + 18) * T :=
        mul_le_mul_of_nonneg_right (bern _) hT
      have h8 : (1 - ((2 * n + K + 19 : Nat) : ℚ) * uro) * T ≤ (1 - ((2 * n + K + 18 : Nat) : ℚ) * uro) * T := by
        refine mul_le_mul_of_nonneg_right ?_ hT
        push_cast
        have := uro_pos
        linarith
      have h9 : (1 - uro) ^ (n + 8) * (5 / 4 * eta) ≤ 1 * (5 / 4 * eta) :=
        mul_le_mul_of_nonneg_right a1 (by linarith)
      have e3 : (1 - uro) ^ (n + 8) * ((1 - uro) ^ 2 * (Q / 10) - 5 / 4 * eta) =
          (1 - uro) ^ (n + 8) * ((1 - uro) ^ 2 * Q) / 10 - (1 - uro) ^ (n + 8) * (5 / 4 * eta) := by ring
      rw [e3] at h3
      have e0 : (1 - ((2 * n + K + 19 : Nat) : ℚ) * uro) * (T / 10) - 2 * (n + 1) * eta =
        (1 - ((2 * n + K + 19 : Nat) : ℚ) * uro) * T / 10 - 2 * (n * eta) - 2 * eta := by ring
      rw [e0]
      generalize (1 - ((2 * n + K + 19 : Nat) : ℚ) * uro) * T = Z at *
      linarith

theorem sum_finite {ref : List (Pt n)} (hsz : n + ref.length ≤ 2 ^ 50) (h2 : 2 ≤ ref.length)
    (hf : ∀ a ∈ ref, FinitePt a) (hG : typicalSq ref * sampleSize ref.length ≤ 2 ^ 1022) (par : Bool) (sp : Split) :
    (Scatter.sumDists par sp (Scatter.sampledDists ref)).isInf = false := by
  obtain ⟨S, hS, hnum, hpos, hup, -⟩ := sum_bounds (by omega) h2 hf par sp
  rw [← hS]
  cases hi : S.isInf with
  | false => rfl
  | true =>
    exfalso
    have ha : S.av = 2 * top * scale := by
      unfold av
      rw [isInf_iff.1 hi, uval_inf]
    rw [ha] at hup
    have hup := le_of_mul_le_mul_right hup scale_q_pos
    rw [two_half_top] at hG
    have hKl := sampleSize_le ref.length
    have hT := typicalSq_nonneg ref
    generalize sampleSize ref.length = K at *
    generalize typicalSq ref = T at *
    have hm : (((n + 8 + K : Nat) : ℚ)) ≤ 2 ^ 50 + 8 := by
      exact_mod_cast (by omega : n + 8 + K ≤ 2 ^ 50 + 8)
    have hb := bern (n + 8 + K)
    have hlow : 1 / 2 ≤ (1 - uro) ^ (n + 8 + K) := by
      refine le_trans ?_ hb
      have := mul_le_mul_of_nonneg_right hm uro_pos.le
      rw [uro_num] at this ⊢
      norm_num at this ⊢
      linarith
    have hpm := pow_mul_pow_le (n + 8 + K)
    have hP0 := one_le_pow_uro (n + 8 + K)
    have hP : (1 + uro) ^ (n + 8 + K) ≤ 2 := by
      have := mul_le_mul_of_nonneg_right hlow (le_trans zero_le_one hP0)
      linarith
    have he0 := eta_pos
    have hnq : (n : ℚ) ≤ 2 ^ 50 := by exact_mod_cast (by omega : n ≤ 2 ^ 50)
    have hKq : (K : ℚ) ≤ 2 ^ 50 := by exact_mod_cast (by omega : K ≤ 2 ^ 50)
    have hnK : (n : ℚ) * K * eta ≤ 1 / 8 := by
      have h1 : (n : ℚ) * K ≤ 2 ^ 50 * 2 ^ 50 := mul_le_mul hnq hKq (Nat.cast_nonneg _) (by norm_num)
      have h2 := mul_le_mul_of_nonneg_right h1 he0.le
      have h3 : (2 : ℚ) ^ 50 * 2 ^ 50 * eta ≤ 1 / 8 := by
        unfold eta
        rw [show (2 : ℚ) ^ 1075 = 2 ^ 100 * 2 ^ 975 by rw [← pow_add]]
        have h8 : (2 : ℚ) ^ 3 ≤ 2 ^ 975 := pow_le_pow_right₀ (by norm_num) (by norm_num)
        generalize (2 : ℚ) ^ 975 = c at *
        rw [mul_one_div, div_le_div_iff₀ (by norm_num at h8; positivity) (by norm_num)]
        norm_num at h8 ⊢
        linarith
      linarith
    have hT1 := one_le_top
    have e : (1 + uro) ^ (n + 8 + K) * (T + n * eta) * K = (1 + uro) ^ (n + 8 + K) * (T * K + n * K * eta) := by ring
    rw [e] at hup
    have : (1 + uro) ^ (n + 8 + K) * (T * K + n * K * eta) ≤ 2 * (top / 2 + 1 / 8) :=
      mul_le_mul hP (by linarith) (add_nonneg (mul_nonneg hT (Nat.cast_nonneg _))
        (mul_nonneg (mul_nonneg (Nat.cast_nonneg _) (Nat.cast_nonneg _)) he0.le)) (by norm_num)
    linarith

theorem beside_of_not_gt {ref : List (Pt n)} (hsz : ref.length < 2 ^ 52) (h2 : 2 ≤ ref.length)
    (hf : ∀ a ∈ ref, FinitePt a) {par : Bool} {sp : Split}
    (hi : (Scatter.sumDists par sp (Scatter.sampledDists ref)).isInf = false) {x y : Pt n} (hx : FinitePt x) (hy : y ∈ ref)
    (h : F64.gt (dist2 x y) (Scatter.distThreshold par sp ref) = false) : Beside ref x y := by
  have hD := exactSq_nonneg x y
  have he0 := eta_pos
  have hT := typicalSq_nonneg ref
  unfold Beside
  rw [eta_two, spreadErr_eq]
  obtain ⟨S, hS, hnum, hpos, hup, -⟩ := sum_bounds hsz h2 hf par sp
  have hk := kOf_eq hsz
  have hK2 := sampleSize_two h2
  have hK52 : sampleSize ref.length < 2 ^ 52 := lt_of_le_of_lt (sampleSize_le _) hsz
  have hthr : Scatter.distThreshold par sp ref = (S.div (F64.ofNat (sampleSize ref.length))).mul (F64.lit 1 10) := by
    unfold Scatter.distThreshold
    rw [if_neg (by omega), ← hS, hk]
    rfl
  rw [hthr] at h
  rw [← hS] at hi
  have hw := within_dist2 hx (hf y hy)
  rw [exactSq_units] at hw
  have hd := (within_vals hw).2
  have hdp := hw.pos
  have hdn := hw.num
  have hfin := finite_of hnum hi
  obtain ⟨tf, _, t1⟩ := tenth_mean hfin hpos hK2 hK52
  have hle : F64.le (dist2 x y) ((S.div (F64.ofNat (sampleSize ref.length))).mul (F64.lit 1 10)) = true := by
    rw [le_iff]
    refine ⟨hdn, fin_not_nan tf, ?_⟩
    by_contra hc
    have : F64.gt (dist2 x y) ((S.div (F64.ofNat (sampleSize ref.length))).mul (F64.lit 1 10)) = true :=
      lt_iff.2 ⟨fin_not_nan tf, hdn, by omega⟩
    rw [h] at this
    cases this
  have hdf : (dist2 x y).isFinite = true := by
    have h1 := (le_iff.1 hle).2.2
    have h2 := isFinite_iff.1 tf
    rw [isFinite_iff]
    unfold key at h1
    rw [hdp] at h1
    simp only [Bool.false_eq_true, if_false] at h1
    split at h1
    · omega
    · omega
  have hd := hd.resolve_left (by rw [fin_not_inf hdf]; exact Bool.false_ne_true)
  rw [av_val hdp] at hd
  have hd := le_of_mul_le_mul_right hd scale_q_pos
  have hv := hd.trans ((le_iff_val hdf tf).1 hle)
  rw [av_val hpos] at hup
  have hup := le_of_mul_le_mul_right hup scale_q_pos
  have hKq : (0 : ℚ) < sampleSize ref.length := by exact_mod_cast (by omega : 0 < sampleSize ref.length)
  have hup := (div_le_iff₀ hKq).2 hup
  generalize realVal ((S.div (F64.ofNat (sampleSize ref.length))).mul (F64.lit 1 10)) = t at *
  generalize realVal S / (sampleSize ref.length : ℚ) = Q at *
  generalize sampleSize ref.length = K at *
  generalize typicalSq ref = T at *
  generalize exactSq x y = D at *
  have hn : (0 : ℚ) ≤ n := Nat.cast_nonneg n
  have hne : 0 ≤ (n : ℚ) * eta := mul_nonneg hn he0.le
  have u0 := uro_pos
  have a0 := pow_nonneg_sub (n + K + 11)
  have h1 := mul_le_mul_of_nonneg_left (hv.trans t1) a0
  have h3 : (1 + uro) ^ 3 * Q ≤ (1 + uro) ^ 3 * ((1 + uro) ^ (n + 8 + K) * (T + n * eta)) :=
    mul_le_mul_of_nonneg_left hup (pow_nonneg (by linarith) _)
  have h4 := mul_le_mul_of_nonneg_left h3 a0
  have h5 : (1 - uro) ^ (n + K + 11) * ((1 + uro) ^ 3 * ((1 + uro) ^ (n + 8 + K) * (T + n * eta))) ≤
      1 * (T + n * eta) := by
    rw [← mul_assoc ((1 + uro) ^ 3), ← pow_add, show 3 + (n + 8 + K) = n + K + 11 by omega, ← mul_assoc]
    exact mul_le_mul_of_nonneg_right (pow_mul_pow_le _) (by linarith)
  have e1 : (1 - uro) ^ (n + K + 11) * ((1 + uro) ^ 3 * (Q / 10) + 5 / 4 * eta) =
      (1 - uro) ^ (n + K + 11) * ((1 + uro) ^ 3 * Q) / 10 + (1 - uro) ^ (n + K + 11) * (5 / 4 * eta) := by ring
  rw [e1] at h1
  have h6 : (1 - uro) ^ (n + K + 11) * (5 / 4 * eta) ≤ 1 * (5 / 4 * eta) :=
    mul_le_mul_of_nonneg_right (pow_sub_le_one _) (by linarith)
  have e2 : (1 - uro) ^ (n + K + 11) * ((1 - uro) ^ (n + 8) * (D - 2 * n * eta)) =
      (1 - uro) ^ (2 * n + K + 19) * D - (1 - uro) ^ (2 * n + K + 19) * (2 * (n * eta)) := by
    rw [show 2 * n + K + 19 = (n + K + 11) + (n + 8) by omega, pow_add]
    ring
  rw [e2] at h1
  have h7 : (1 - uro) ^ (2 * n + K + 19) * (2 * (n * eta)) ≤ 1 * (2 * (n * eta)) :=
    mul_le_mul_of_nonneg_right (pow_sub_le_one _) (by linarith)
  have h8 : (1 - ((2 * n + K + 19 : Nat) : ℚ) * uro) * D ≤ (1 - uro) ^ (2 * n + K + 19) * D :=
    mul_le_mul_of_nonneg_right (bern _) hD
  have e0 : T / 10 + 2 * (2 * n + 1) * eta = T / 10 + 4 * (n * eta) + 2 * eta := by ring
  rw [e0]
  generalize (1 - ((2 * n + K + 19 : Nat) : ℚ) * uro) * D = Z at *
  linarith

/-- C109: a point of the final reference set that was not in the initial one is apart from each of the first five
points of the initial set. -/
theorem C109_accepted (rt : Rt n) (hv : rt.Valid) (sched : Sched) (s : Scatter n) (hg : GoodBounds s.problem)
    (hc : customInside s) (r : Scatter.Result n) (h : s.run rt sched = .ok r) :
    ∃ s1, s.init rt sched = .ok s1 ∧ (s1.refSet.length < 2 ^ 52 → ∀ x v, (x, v) ∈ r.ref →
      x ∈ s1.refSet ∨ ∀ y ∈ s1.refSet.take 5, Apart s1.refSet x y) := by
  obtain ⟨s1, s2, trials, h1, h2, _, _, hr, _, hm⟩ := run_members hv h
  refine ⟨s1, h1, fun hsz x v hx => ?_⟩
  have hf : ∀ a ∈ s1.refSet, FinitePt a := fun a ha i => finite_of_inBounds hg (init_inBounds hv hg hc h1 ha) i
  rcases hm x v hx with hx | hx
  · exact .inl (zip_fst_mem hx)
  · refine .inr fun y hy => ?_
    have hxt := (Scatter.accepted_mem hx).1
    have hxf : FinitePt x := fun i =>
      finite_of_inBounds hg (C14_trial_points_partial rt hv sched s s1 s2 hg hc trials h1 h2 x hxt) i
    have hgt : F64.gt (dist2 x y) (Scatter.distThreshold s2.parallel sched.sum s2.refSet) = true := by
      unfold Scatter.acceptedTrials at hx
      rw [List.mem_filterMap] at hx
      obtain ⟨p, _, he⟩ := hx
      unfold Scatter.evalTrial at he
      split at he
      · rename_i hte
        split at he
        · cases he
        · split at he
          · injection he with he
            injection he with hpx _
            subst hpx
            unfold Scatter.trialEvaluated at hte
            rw [Bool.and_eq_true, List.all_eq_true] at hte
            exact hte.2 y (by rw [hr]; exact hy)
          · cases he
      · cases he
    rw [hr] at hgt
    exact apart_of_gt hsz hf hxf (List.mem_of_mem_take hy) hgt

/-- The trial point `x` is lost: the updated reference set holds a worse point instead. -/
def Lost (s3 : Scatter n) (x : Pt n) (v : F64) : Prop :=
  (x, v) ∉ s3.refSet.zip s3.refObjs ∧ ∃ z ∈ s3.refSet.zip s3.refObjs, F64.lt v z.2 = true

/-- C109 (partial: the sum of the sampled squared distances is at most `2^1022`): a feasible trial point with an
objective below the last one of the reference set is not lost, unless it is beside one of the first five points. -/
theorem C109_kept_partial (rt : Rt n) (hv : rt.Valid) (sched : Sched) (s s1 s2 s3 : Scatter n)
    (hg : GoodBounds s.problem) (hc : customInside s) (l : List (Pt n)) (h1 : s.init rt sched = .ok s1)
    (h2 : s1.trialPoints rt = some (s2, l)) (h3 : s2.update rt sched l = some s3)
    (hsz : n + s1.refSet.length ≤ 2 ^ 50) (hl : 2 ≤ s1.refSet.length)
    (hG : typicalSq s1.refSet * sampleSize s1.refSet.length ≤ 2 ^ 1022)
    (x : Pt n) (hx : x ∈ l) (hs : satisfies s.problem x) (v w : F64) (ho : s.problem.objective x = .ok v)
    (hw : s1.refObjs.getLast? = some w) (hvw : F64.lt v w = true) (hlost : Lost s3 x v) :
    ∃ y ∈ s1.refSet.take 5, Beside s1.refSet x y := by
  by_contra hcon
  have hcon : ∀ y ∈ s1.refSet.take 5, ¬ Beside s1.refSet x y := fun y hy hb => hcon ⟨y, hy, hb⟩
  obtain ⟨_, _, _, _, _, _, _, e, _⟩ := Scatter.init_ok hv h1
  have e2 := (Scatter.trialPoints_parts h2).1
  have hf : ∀ a ∈ s1.refSet, FinitePt a := fun a ha i => finite_of_inBounds hg (init_inBounds hv hg hc h1 ha) i
  have hxf : FinitePt x := fun i =>
    finite_of_inBounds hg (C14_trial_points_partial rt hv sched s s1 s2 hg hc l h1 h2 x hx) i
  have q2 : s2.problem = s.problem := by rw [e2, e]
  have r2 : s2.refSet = s1.refSet := by rw [e2]
  have o2 : s2.refObjs = s1.refObjs := by rw [e2]
  have hacc : trialAccepted sched s2 x := by
    refine ⟨by rw [q2]; exact hs, fun y hy => ?_, v, w, by rw [q2]; exact ho, by rw [o2]; exact hw, hvw⟩
    rw [r2] at hy ⊢
    cases hgt : F64.lt (Scatter.distThreshold s2.parallel sched.sum s1.refSet) (dist2 x y) with
    | true => rfl
    | false => exact absurd (beside_of_not_gt (by omega) hl hf (sum_finite hsz hl hf hG _ _) hxf
        (List.mem_of_mem_take hy) hgt) (hcon y hy)
  clear hG
  obtain ⟨acc, disc, hperm, hobj, hall, hle⟩ := C19_keeps_best rt hv sched s2 s3 l h3
  have hne : s2.refObjs ≠ [] := by
    intro h0
    rw [← o2, h0] at hw
    cases hw
  obtain ⟨v', hv'⟩ := hall hne x hx hacc
  have hvv : v' = v := by
    have := (hobj x v' hv').2
    rw [q2, ho] at this
    injection this with this
    exact this.symm
  subst hvv
  have hmem : (x, v') ∈ s3.refSet.zip s3.refObjs ++ disc :=
    hperm.mem_iff.2 (List.mem_append_right _ hv')
  rcases List.mem_append.1 hmem with hm | hm
  · exact hlost.1 hm
  · obtain ⟨z, hz, hlt⟩ := hlost.2
    have h5 := hle z hz _ hm
    have h6 := lt_iff.1 hlt
    have := (le_iff.1 (le_of_tle h6.2.1 h6.1 h5)).2.2
    omega

/-! ### Non-vacuity and counterexample -/

open GS.Witness

/-- Bounds `[-2^600, 2^600]`. -/
def farBounds : Problem 1 :=
  ⟨fun p => .ok (p 0), pt ⟨true, 1623 * 2 ^ 52, by decide⟩, pt ⟨false, 1623 * 2 ^ 52, by decide⟩, []⟩

/-- The initial reference set, its objectives, the trial points and the updated reference set. -/
def stages (p : Problem 1) (q : Params) : Option (List F64 × List F64 × List F64 × List F64 × List F64) :=
  match (scat p q none).init (rt 1) sched with
  | .error _ => none
  | .ok s1 =>
    match s1.trialPoints (rt 1) with
    | none => none
    | some (s2, l) => (s2.update (rt 1) sched l).map fun s3 =>
        (s1.refSet.map (· 0), s1.refObjs, l.map (· 0), s3.refSet.map (· 0), s3.refObjs)

theorem map_pt {l : List (Pt 1)} {m : List F64} (h : l.map (· 0) = m) : l = m.map pt := by
  rw [← h, List.map_map]
  conv_lhs => rw [← List.map_id l]
  refine List.map_congr_left fun x _ => ?_
  funext i
  have hi : i = 0 := Subsingleton.elim _ _
  subst hi
  rfl

theorem stages_some {p : Problem 1} {q : Params} {a b c d e : List F64} (h : stages p q = some (a, b, c, d, e)) :
    ∃ s1 s2 s3 l, (scat p q none).init (rt 1) sched = .ok s1 ∧ s1.trialPoints (rt 1) = some (s2, l) ∧
      s2.update (rt 1) sched l = some s3 ∧ s1.refSet = a.map pt ∧ s1.refObjs = b ∧ l = c.map pt ∧
      s3.refSet = d.map pt ∧ s3.refObjs = e := by
  unfold stages at h
  split at h
  · cases h
  · rename_i s1 h1
    split at h
    · cases h
    · rename_i s2 l h2
      obtain ⟨s3, h3, he⟩ := Option.map_eq_some_iff.1 h
      cases he
      exact ⟨s1, s2, s3, l, h1, h2, h3, map_pt rfl, rfl, map_pt rfl, map_pt rfl, rfl⟩

theorem exactSq_one (a b : F64) : exactSq (pt a) (pt b) = (realVal a - realVal b) ^ 2 := by
  unfold exactSq
  simp [pt]

/-- The numbers `-2^600`, `0`, `2^600` and `-2^599`. -/
def far (k : Fin 4) : F64 :=
  match k with
  | 0 => ⟨true, 1623 * 2 ^ 52, by decide⟩
  | 1 => F64.zero
  | 2 => ⟨false, 1623 * 2 ^ 52, by decide⟩
  | 3 => ⟨true, 1622 * 2 ^ 52, by decide⟩

theorem far_vals : realVal (far 0) = -2 ^ 600 ∧ realVal (far 1) = 0 ∧ realVal (far 2) = 2 ^ 600 ∧
    realVal (far 3) = -2 ^ 600 / 2 := by
  refine ⟨?_, ?_, ?_, ?_⟩
  · rw [realVal_of (x := far 0) (p := -2 ^ 600) (q := 1) one_pos (by decide +kernel)]
    push_cast; ring
  · rw [realVal_of (x := far 1) (p := 0) (q := 1) one_pos (by decide +kernel)]
    norm_num
  · rw [realVal_of (x := far 2) (p := 2 ^ 600) (q := 1) one_pos (by decide +kernel)]
    push_cast; ring
  · rw [realVal_of (x := far 3) (p := -2 ^ 600) (q := 2) two_pos (by decide +kernel)]
    push_cast; ring

theorem far_typical : sampleSize 3 = 2 ∧ typicalSq ([far 0, far 1, far 2].map pt) = (2 ^ 600) ^ 2 := by
  have hk : sampleSize 3 = 2 := by decide +kernel
  refine ⟨hk, ?_⟩
  obtain ⟨v0, v1, v2, _⟩ := far_vals
  unfold typicalSq
  simp only [List.map_cons, List.map_nil, List.length_cons, List.length_nil, hk]
  have e : List.range 2 = [0, 1] := by decide
  simp only [e, List.map_cons, List.map_nil, List.sum_cons, List.sum_nil, gapSq, List.length_cons, List.length_nil,
    List.getElem?_cons_zero, List.getElem?_cons_succ]
  norm_num only [List.getElem?_cons_zero, List.getElem?_cons_succ, exactSq_one, v0, v1, v2]
  generalize (2 : ℚ) ^ 600 = B
  ring

/-- C109 fails for distances beyond the range of the squared distance: with bounds `[-2^600, 2^600]` every squared
distance overflows, the threshold is infinite, and a trial point that is better than the last reference point and far
from all of them is lost. -/
theorem C109_overflow_violated : GoodBounds farBounds ∧ ∃ s1 s2 s3 l,
    (scat farBounds (params 4 3 0) none).init (rt 1) sched = .ok s1 ∧ s1.trialPoints (rt 1) = some (s2, l) ∧
    s2.update (rt 1) sched l = some s3 ∧ s1.refSet.length = 3 ∧ pt (far 3) ∈ l ∧
    (∃ w, s1.refObjs.getLast? = some w ∧ farBounds.objective (pt (far 3)) = .ok (far 3) ∧ F64.lt (far 3) w = true) ∧
    Lost s3 (pt (far 3)) (far 3) ∧ ∀ y ∈ s1.refSet.take 5, ¬ Beside s1.refSet (pt (far 3)) y := by
  refine ⟨⟨fun i => ?_, fun i => ?_, fun i => ?_, fun i => ?_, fun i => ?_⟩, ?_⟩
  iterate 5 (revert i; decide +kernel)
  have hst : (stages farBounds (params 4 3 0)).map (fun t => (t.1, t.2.1, decide (far 3 ∈ t.2.2.1), t.2.2.2)) =
      some ([far 0, far 1, far 2], [far 0, far 1, far 2], true, [far 0, far 1, far 2], [far 0, far 1, far 2]) := by
    decide +kernel
  obtain ⟨⟨a, b, c, d, e⟩, hs, ht⟩ := Option.map_eq_some_iff.1 hst
  simp only [Prod.mk.injEq, decide_eq_true_eq] at ht
  obtain ⟨rfl, rfl, hc, rfl, rfl⟩ := ht
  obtain ⟨s1, s2, s3, l, h1, h2, h3, r1, o1, rfl, r3, o3⟩ := stages_some hs
  refine ⟨s1, s2, s3, _, h1, h2, h3, by rw [r1]; rfl, List.mem_map_of_mem hc,
    ⟨far 2, by rw [o1]; rfl, rfl, by decide +kernel⟩, ⟨?_, ?_⟩, ?_⟩
  · rw [r3, o3]
    decide +kernel
  · rw [r3, o3]
    exact ⟨(pt (far 2), far 2), by decide +kernel, by decide +kernel⟩
  · rw [r1]
    obtain ⟨hk, hty⟩ := far_typical
    obtain ⟨v0, v1, v2, v3⟩ := far_vals
    intro y hy hb
    unfold Beside at hb
    rw [hty, eta_two, List.length_map] at hb
    simp only [List.length_cons, List.length_nil, Nat.zero_add, Nat.reduceAdd, hk] at hb
    have hB : (1 : ℚ) ≤ 2 ^ 600 := one_le_pow₀ (by norm_num)
    have hfar : (2 ^ 600) ^ 2 / 4 ≤ exactSq (pt (far 3)) y := by
      simp only [List.map_cons, List.map_nil, List.take_succ_cons, List.take_nil, List.mem_cons, List.not_mem_nil,
        or_false] at hy
      rcases hy with rfl | rfl | rfl <;> rw [exactSq_one, v3]
      · rw [v0]
        generalize (2 : ℚ) ^ 600 = B at *
        nlinarith
      · rw [v1]
        generalize (2 : ℚ) ^ 600 = B at *
        nlinarith
      · rw [v2]
        generalize (2 : ℚ) ^ 600 = B at *
        nlinarith
    have he := eta_le
    have hB2 : (1 : ℚ) ≤ (2 ^ 600) ^ 2 := one_le_pow₀ hB
    generalize ((2 : ℚ) ^ 600) ^ 2 = B at *
    generalize exactSq (pt (far 3)) y = D at *
    unfold spreadErr at hb
    push_cast at hb
    norm_num at hb
    linarith

/-- The hypotheses of the theorems hold for bounds `[1, 4]` and a reference set of the points 1, 5/2 and 4: the
trial point 7/4 is accepted. -/
example : GoodBounds lin ∧ ∃ s1 s2 s3 l,
    (scat lin (params 4 3 0) none).init (rt 1) sched = .ok s1 ∧ s1.trialPoints (rt 1) = some (s2, l) ∧
    s2.update (rt 1) sched l = some s3 ∧ s1.refSet = [num 1, F64.lit 5 2, num 4].map pt ∧
    pt (F64.lit 7 4) ∈ l ∧ pt (F64.lit 7 4) ∈ s3.refSet := by
  refine ⟨⟨fun i => ?_, fun i => ?_, fun i => ?_, fun i => ?_, fun i => ?_⟩, ?_⟩
  iterate 5 (revert i; decide +kernel)
  have hst : (stages lin (params 4 3 0)).map (fun t => (t.1, decide (F64.lit 7 4 ∈ t.2.2.1),
      decide (F64.lit 7 4 ∈ t.2.2.2.1))) = some ([num 1, F64.lit 5 2, num 4], true, true) := by decide +kernel
  obtain ⟨⟨a, b, c, d, e⟩, hs, ht⟩ := Option.map_eq_some_iff.1 hst
  simp only [Prod.mk.injEq, decide_eq_true_eq] at ht
  obtain ⟨rfl, hc, hd⟩ := ht
  obtain ⟨s1, s2, s3, l, h1, h2, h3, r1, o1, rfl, r3, o3⟩ := stages_some hs
  exact ⟨s1, s2, s3, _, h1, h2, h3, r1, List.mem_map_of_mem hc, by rw [r3]; exact List.mem_map_of_mem hd⟩

end GS.Props
