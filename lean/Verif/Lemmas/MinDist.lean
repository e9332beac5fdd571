/- Minimum distances: sign of `dist2`, minima of lists, independence of the split tree. -/
import Verif.Lemmas.Scatter
import Verif.Lemmas.Dist
import Verif.F64.Round

namespace GS
open F64
variable {n : Nat}

/-- A double with sign bit 0 whose NaN is the canonical one. -/
def Nice (x : F64) : Prop := x.neg = false ∧ (x.isNaN = true → x = F64.nan)

theorem nice_zero : Nice F64.zero := ⟨rfl, fun h => by revert h; decide⟩
theorem nice_nan : Nice F64.nan := ⟨rfl, fun _ => rfl⟩

theorem nice_mkRound (k : Nat) : Nice (mkRound false k) :=
  ⟨rfl, fun h => by rw [mkRound_not_nan] at h; cases h⟩

theorem nice_sq (d : F64) : Nice (d.mul d) := by
  unfold F64.mul
  simp only [bne_self_eq_false]
  split
  · exact nice_nan
  · split
    · split
      · exact nice_nan
      · exact nice_mkRound _
    · exact nice_mkRound _

theorem toInt_nonneg' {x : F64} (h : x.neg = false) : 0 ≤ x.toInt := by
  unfold toInt; rw [h]; simp

theorem nice_add {x y : F64} (hx : Nice x) (hy : Nice y) : Nice (x.add y) := by
  unfold F64.add
  split
  · exact nice_nan
  · split
    · split
      · exact nice_nan
      · exact hx
    · split
      · exact hy
      · have h1 := toInt_nonneg' hx.1
        have h2 := toInt_nonneg' hy.1
        dsimp only
        split
        · rw [hx.1]; exact nice_zero
        · unfold roundZ
          rw [decide_eq_false (by omega)]
          exact nice_mkRound _

theorem nice_foldl {l : List F64} {a : F64} (ha : Nice a) (h : ∀ x ∈ l, Nice x) :
    Nice (l.foldl F64.add a) := by
  induction l generalizing a with
  | nil => exact ha
  | cons x l ih =>
    exact ih (nice_add ha (h x (by simp))) fun y hy => h y (by simp [hy])

theorem nice_sum8 {l : List F64} (h : ∀ x ∈ l, Nice x) : Nice (sum8 l) := by
  have key : ∀ (k : Nat) (l : List F64) (p0 p1 p2 p3 p4 p5 p6 p7 : F64), l.length ≤ k →
      (∀ x ∈ l, Nice x) → Nice p0 → Nice p1 → Nice p2 → Nice p3 → Nice p4 → Nice p5 → Nice p6 →
      Nice p7 → Nice (sum8Aux p0 p1 p2 p3 p4 p5 p6 p7 l) := by
    intro k
    induction k with
    | zero =>
      intro l p0 p1 p2 p3 p4 p5 p6 p7 hl hn h0 h1 h2 h3 h4 h5 h6 h7
      have : l = [] := List.length_eq_zero_iff.1 (by omega)
      subst this
      unfold sum8Aux
      exact nice_add (nice_add (nice_add (nice_add nice_zero (nice_add h0 h4)) (nice_add h1 h5))
        (nice_add h2 h6)) (nice_add h3 h7)
    | succ k ih =>
      intro l p0 p1 p2 p3 p4 p5 p6 p7 hl hn h0 h1 h2 h3 h4 h5 h6 h7
      unfold sum8Aux
      split
      · rename_i a0 a1 a2 a3 a4 a5 a6 a7 rest
        apply ih
        · simp only [List.length_cons] at hl; omega
        · intro x hx; exact hn x (by simp [hx])
        all_goals (apply nice_add; assumption; apply hn; simp)
      · exact nice_foldl (nice_add (nice_add (nice_add (nice_add nice_zero (nice_add h0 h4))
          (nice_add h1 h5)) (nice_add h2 h6)) (nice_add h3 h7)) hn
  exact key l.length l _ _ _ _ _ _ _ _ le_rfl h nice_zero nice_zero nice_zero nice_zero nice_zero
    nice_zero nice_zero nice_zero

theorem nice_dist2 (a b : Pt n) : Nice (dist2 a b) := by
  unfold dist2
  apply nice_sum8
  intro x hx
  rw [List.mem_ofFn] at hx
  obtain ⟨i, rfl⟩ := hx
  exact nice_sq _

/-- Two non-negative doubles with equal keys are equal. -/
theorem eq_of_key {x y : F64} (hx : x.neg = false) (hy : y.neg = false) (h : x.key = y.key) : x = y := by
  apply tkey_inj
  unfold key at h
  unfold tkey
  rw [hx, hy] at h ⊢
  simpa using h

/-- `v` is the minimum of `inf` and the numbers in the list (NaN ignored). -/
def IsMin (l : List F64) (v : F64) : Prop :=
  v.isNaN = false ∧ (∀ d ∈ l, F64.lt d v = false) ∧ (v = F64.inf ∨ v ∈ l)

theorem isMin_nil : IsMin [] F64.inf := ⟨by decide, by simp, Or.inl rfl⟩

theorem isMin_min {l r : List F64} {a b : F64} (ha : IsMin l a) (hb : IsMin r b) :
    IsMin (l ++ r) (F64.min a b) := by
  unfold F64.min
  rw [ha.1, hb.1]
  simp only [Bool.false_eq_true, if_false]
  split
  · rename_i hlt
    refine ⟨hb.1, ?_, ?_⟩
    · intro d hd
      rw [List.mem_append] at hd
      rcases hd with hd | hd
      · have := ha.2.1 d hd
        rw [Bool.eq_false_iff] at this ⊢
        intro hc
        exact this (lt_trans' hc hlt)
      · exact hb.2.1 d hd
    · rcases hb.2.2 with h | h
      · exact Or.inl h
      · exact Or.inr (List.mem_append_right _ h)
  · rename_i hlt
    refine ⟨ha.1, ?_, ?_⟩
    · intro d hd
      rw [List.mem_append] at hd
      rcases hd with hd | hd
      · exact ha.2.1 d hd
      · have := hb.2.1 d hd
        rw [Bool.eq_false_iff] at this ⊢
        intro hc
        exact this (lt_of_lt_of_le' hc (le_of_not_lt hb.1 ha.1 (by simpa using hlt)))
    · rcases ha.2.2 with h | h
      · exact Or.inl h
      · exact Or.inr (List.mem_append_left _ h)

/-- The update `if e < d { e } else { d }`. -/
theorem isMin_upd {l : List F64} {d : F64} (e : F64) (h : IsMin l d) :
    IsMin (l ++ [e]) (if F64.lt e d then e else d) := by
  split
  · rename_i hlt
    have hl := lt_iff.1 hlt
    refine ⟨hl.1, ?_, Or.inr (by simp)⟩
    intro x hx
    rw [List.mem_append, List.mem_singleton] at hx
    rcases hx with hx | rfl
    · have := h.2.1 x hx
      rw [Bool.eq_false_iff] at this ⊢
      intro hc
      exact this (lt_trans' hc hlt)
    · exact lt_irrefl' _
  · rename_i hlt
    refine ⟨h.1, ?_, ?_⟩
    · intro x hx
      rw [List.mem_append, List.mem_singleton] at hx
      rcases hx with hx | rfl
      · exact h.2.1 x hx
      · simpa using hlt
    · rcases h.2.2 with h | h
      · exact Or.inl h
      · exact Or.inr (List.mem_append_left _ h)

theorem isMin_foldl (l : List F64) : IsMin l (l.foldl F64.min F64.inf) := by
  induction l using List.reverseRecOn with
  | nil => exact isMin_nil
  | append_singleton l x ih =>
    rw [List.foldl_append]
    show IsMin (l ++ [x]) (F64.min _ x)
    generalize l.foldl F64.min F64.inf = a at ih
    by_cases hx : x.isNaN = true
    · unfold F64.min
      rw [ih.1, hx]
      simp only [Bool.false_eq_true, if_false, if_true]
      refine ⟨ih.1, ?_, ?_⟩
      · intro d hd
        rw [List.mem_append, List.mem_singleton] at hd
        rcases hd with hd | rfl
        · exact ih.2.1 d hd
        · simp [F64.lt, hx]
      · rcases ih.2.2 with h | h
        · exact Or.inl h
        · exact Or.inr (List.mem_append_left _ h)
    · have hx : x.isNaN = false := by simpa using hx
      have := isMin_upd x ih
      unfold F64.min
      rw [ih.1, hx]
      exact this

theorem isMin_reduce (sp : Split) (l : List F64) :
    IsMin l (sp.reduce (fun l => l.foldl F64.min F64.inf) F64.min l) := by
  induction sp generalizing l with
  | leaf => exact isMin_foldl l
  | node k a b iha ihb =>
    unfold Split.reduce
    have := isMin_min (iha (l.take k)) (ihb (l.drop k))
    rwa [List.take_append_drop] at this

theorem isMin_key {l : List F64} {a b : F64} (ha : IsMin l a) (hb : IsMin l b) : a.key = b.key := by
  have aux : ∀ a b : F64, IsMin l a → IsMin l b → a.key ≤ b.key := by
    intro a b ha hb
    rcases hb.2.2 with h | h
    · subst h; exact key_le_inf ha.1
    · have := ha.2.1 b h
      rw [Bool.eq_false_iff, ne_eq, lt_iff] at this
      by_contra hc
      exact this ⟨hb.1, ha.1, by omega⟩
  have := aux a b ha hb
  have := aux b a hb ha
  omega

theorem isMin_unique {l : List F64} (hl : ∀ x ∈ l, x.neg = false) {a b : F64} (ha : IsMin l a)
    (hb : IsMin l b) : a = b := by
  have hneg : ∀ a, IsMin l a → a.neg = false := by
    intro a ha
    rcases ha.2.2 with h | h
    · subst h; rfl
    · exact hl a h
  exact eq_of_key (hneg a ha) (hneg b hb) (isMin_key ha hb)

/-- `v` is the smallest distance from `p` to a point of the set (`inf` for the empty set). -/
def IsMinDist (p : Pt n) (ref : List (Pt n)) (v : F64) : Prop := IsMin (ref.map (dist2 p)) v

namespace Scatter

theorem minDistPar_isMin (sp : Split) (p : Pt n) (ref : List (Pt n)) :
    IsMinDist p ref (minDistPar sp p ref) := isMin_reduce sp _

theorem minDistPar_split (sp sp' : Split) (p : Pt n) (ref : List (Pt n)) :
    minDistPar sp p ref = minDistPar sp' p ref := by
  refine isMin_unique ?_ (minDistPar_isMin sp p ref) (minDistPar_isMin sp' p ref)
  intro x hx
  rw [List.mem_map] at hx
  obtain ⟨q, _, rfl⟩ := hx
  exact (nice_dist2 p q).1

/-- The smallest squared distance that is not treated as zero by the sequential code. -/
abbrev eps : F64 := F64.lit 1 (10 ^ 14)

theorem minDistSeq_cases (p : Pt n) (ref pre : List (Pt n)) (acc : F64)
    (hacc : IsMinDist p pre acc) :
    IsMinDist p (pre ++ ref) (minDistSeq p acc ref) ∨
    (minDistSeq p acc ref = F64.zero ∧ ∃ q ∈ ref, F64.lt (dist2 p q) eps = true) := by
  induction ref generalizing pre acc with
  | nil => left; simpa [minDistSeq] using hacc
  | cons q ref ih =>
    have h := isMin_upd (dist2 p q) hacc
    have e : List.map (dist2 p) pre ++ [dist2 p q] = (pre ++ [q]).map (dist2 p) := by simp
    rw [e] at h
    unfold minDistSeq
    dsimp only
    split
    · rename_i hlt
      split
      · rename_i heps
        exact Or.inr ⟨rfl, q, by simp, heps⟩
      · rw [if_pos hlt] at h
        rcases ih (pre ++ [q]) _ h with h | ⟨h1, q', h2, h3⟩
        · left; simpa using h
        · exact Or.inr ⟨h1, q', by simp [h2], h3⟩
    · rename_i hlt
      rw [if_neg hlt] at h
      rcases ih (pre ++ [q]) _ h with h | ⟨h1, q', h2, h3⟩
      · left; simpa using h
      · exact Or.inr ⟨h1, q', by simp [h2], h3⟩

/-- If every distance below the cut-off is exactly zero, the sequential branch computes the true
minimum. -/
theorem minDistSeq_isMin (p : Pt n) (ref : List (Pt n))
    (h : ∀ q ∈ ref, F64.lt (dist2 p q) eps = true → dist2 p q = F64.zero) :
    IsMinDist p ref (minDistSeq p F64.inf ref) := by
  rcases minDistSeq_cases p ref [] F64.inf isMin_nil with h1 | ⟨h1, q, hq, h2⟩
  · simpa using h1
  · rw [h1]
    have hz := h q hq h2
    refine ⟨by decide, ?_, Or.inr ?_⟩
    · intro d hd
      rw [List.mem_map] at hd
      obtain ⟨r, _, rfl⟩ := hd
      have hn := (nice_dist2 p r).1
      rw [Bool.eq_false_iff, ne_eq, lt_iff]
      rintro ⟨_, _, hk⟩
      have : F64.zero.key = 0 := rfl
      unfold F64.key at hk this
      rw [hn] at hk
      simp [F64.zero] at hk
      omega
    · rw [List.mem_map]; exact ⟨q, hq, hz⟩

end Scatter
end GS
