/- `min_by`/`max_by` reductions, sequential and along rayon split trees. -/
import Verif.F64.Round
import Verif.Model.Runtime
import Mathlib.Data.List.Induction

namespace GS
open F64

theorem reduceSeq_append {α : Type} (op : α → α → α) (l : List α) (x : α) :
    reduceSeq op (l ++ [x]) = some (match reduceSeq op l with | some a => op a x | none => x) := by
  unfold reduceSeq
  rw [List.foldl_append]
  simp only [List.foldl_cons, List.foldl_nil]
  cases List.foldl (fun acc x => optOp op acc (some x)) none l <;> rfl

theorem reduceSeq_isSome {α : Type} (op : α → α → α) {l : List α} (h : l ≠ []) :
    ∃ a, reduceSeq op l = some a := by
  obtain ⟨l', x, rfl⟩ : ∃ l' x, l = l' ++ [x] :=
    ⟨l.dropLast, l.getLast h, (List.dropLast_concat_getLast h).symm⟩
  exact ⟨_, reduceSeq_append op l' x⟩

theorem reduceSeq_none {α : Type} (op : α → α → α) {l : List α} :
    reduceSeq op l = none ↔ l = [] := by
  constructor
  · intro h
    by_contra hc
    obtain ⟨a, ha⟩ := reduceSeq_isSome op hc
    rw [h] at ha; cases ha
  · rintro rfl; rfl

theorem minOp_cases {α : Type} (f : α → F64) (a b : α) :
    (minOp f a b = b ∧ (f b).tkey < (f a).tkey) ∨ (minOp f a b = a ∧ (f a).tkey ≤ (f b).tkey) := by
  unfold minOp
  by_cases h : tlt (f b) (f a) = true
  · left; rw [if_pos h]; exact ⟨rfl, tlt_iff.1 h⟩
  · right; rw [if_neg h]; rw [tlt_iff] at h; exact ⟨rfl, by omega⟩

theorem maxOp_cases {α : Type} (f : α → F64) (a b : α) :
    (maxOp f a b = a ∧ (f b).tkey < (f a).tkey) ∨ (maxOp f a b = b ∧ (f a).tkey ≤ (f b).tkey) := by
  unfold maxOp
  by_cases h : tlt (f b) (f a) = true
  · left; rw [if_pos h]; exact ⟨rfl, tlt_iff.1 h⟩
  · right; rw [if_neg h]; rw [tlt_iff] at h; exact ⟨rfl, by omega⟩

/-- `min_by` returns the first minimum. -/
theorem reduceSeq_min {α : Type} (f : α → F64) {l : List α} {x : α}
    (h : reduceSeq (minOp f) l = some x) :
    ∃ i : Nat, l[i]? = some x ∧ (∀ (j : Nat) y, l[j]? = some y → (f x).tkey ≤ (f y).tkey) ∧
      ∀ (j : Nat) y, j < i → l[j]? = some y → (f x).tkey < (f y).tkey := by
  induction l using List.reverseRecOn generalizing x with
  | nil => simp [reduceSeq] at h
  | append_singleton l b ih =>
    rw [reduceSeq_append] at h
    injection h with h
    rcases hr : reduceSeq (minOp f) l with _ | a
    · rw [hr] at h
      rw [reduceSeq_none] at hr
      subst hr
      simp only at h
      subst h
      refine ⟨0, rfl, ?_, ?_⟩
      · intro j y hj
        cases j with
        | zero => simp at hj; subst hj; exact le_refl _
        | succ j => simp at hj
      · intro j y hj; omega
    · rw [hr] at h
      simp only at h
      obtain ⟨i, hi, h1, h2⟩ := ih hr
      have hil : i < l.length := by
        rw [List.getElem?_eq_some_iff] at hi; exact hi.1
      rcases minOp_cases f a b with ⟨e, hlt⟩ | ⟨e, hle⟩
      · rw [e] at h; subst h
        refine ⟨l.length, by simp, ?_, ?_⟩
        · intro j y hj
          by_cases hjl : j < l.length
          · rw [List.getElem?_append_left hjl] at hj
            have := h1 j y hj; omega
          · rw [List.getElem?_append_right (by omega)] at hj
            rcases hk : j - l.length with _ | k
            · rw [hk] at hj; simp at hj; subst hj; exact le_refl _
            · rw [hk] at hj; simp at hj
        · intro j y hjl hj
          rw [List.getElem?_append_left hjl] at hj
          have := h1 j y hj; omega
      · rw [e] at h; subst h
        refine ⟨i, by rw [List.getElem?_append_left hil]; exact hi, ?_, ?_⟩
        · intro j y hj
          by_cases hjl : j < l.length
          · rw [List.getElem?_append_left hjl] at hj
            exact h1 j y hj
          · rw [List.getElem?_append_right (by omega)] at hj
            rcases hk : j - l.length with _ | k
            · rw [hk] at hj; simp at hj; subst hj; exact hle
            · rw [hk] at hj; simp at hj
        · intro j y hji hj
          rw [List.getElem?_append_left (by omega)] at hj
          exact h2 j y hji hj

/-- `max_by` returns the last maximum. -/
theorem reduceSeq_max {α : Type} (f : α → F64) {l : List α} {x : α}
    (h : reduceSeq (maxOp f) l = some x) :
    ∃ i : Nat, l[i]? = some x ∧ (∀ (j : Nat) y, l[j]? = some y → (f y).tkey ≤ (f x).tkey) ∧
      ∀ (j : Nat) y, i < j → l[j]? = some y → (f y).tkey < (f x).tkey := by
  induction l using List.reverseRecOn generalizing x with
  | nil => simp [reduceSeq] at h
  | append_singleton l b ih =>
    rw [reduceSeq_append] at h
    injection h with h
    have hlast : ∀ j y, ¬ j < l.length → (l ++ [b])[j]? = some y → j = l.length ∧ y = b := by
      intro j y hjl hj
      rw [List.getElem?_append_right (by omega)] at hj
      rcases hk : j - l.length with _ | k
      · rw [hk] at hj; simp at hj; exact ⟨by omega, hj.symm⟩
      · rw [hk] at hj; simp at hj
    rcases hr : reduceSeq (maxOp f) l with _ | a
    · rw [hr] at h
      rw [reduceSeq_none] at hr
      subst hr
      simp only at h
      subst h
      refine ⟨0, rfl, ?_, ?_⟩
      · intro j y hj
        obtain ⟨_, rfl⟩ := hlast j y (by simp) hj
        exact le_refl _
      · intro j y hj0 hj
        obtain ⟨hj1, rfl⟩ := hlast j y (by simp) hj
        simp at hj1; omega
    · rw [hr] at h
      simp only at h
      obtain ⟨i, hi, h1, h2⟩ := ih hr
      have hil : i < l.length := by
        rw [List.getElem?_eq_some_iff] at hi; exact hi.1
      rcases maxOp_cases f a b with ⟨e, hlt⟩ | ⟨e, hle⟩
      · rw [e] at h; subst h
        refine ⟨i, by rw [List.getElem?_append_left hil]; exact hi, ?_, ?_⟩
        · intro j y hj
          by_cases hjl : j < l.length
          · rw [List.getElem?_append_left hjl] at hj
            exact h1 j y hj
          · obtain ⟨_, rfl⟩ := hlast j y hjl hj; omega
        · intro j y hij hj
          by_cases hjl : j < l.length
          · rw [List.getElem?_append_left hjl] at hj
            exact h2 j y hij hj
          · obtain ⟨_, rfl⟩ := hlast j y hjl hj; exact hlt
      · rw [e] at h; subst h
        refine ⟨l.length, by simp, ?_, ?_⟩
        · intro j y hj
          by_cases hjl : j < l.length
          · rw [List.getElem?_append_left hjl] at hj
            have := h1 j y hj; omega
          · obtain ⟨_, rfl⟩ := hlast j y hjl hj; exact le_refl _
        · intro j y hij hj
          obtain ⟨hj1, _⟩ := hlast j y (by omega) hj
          omega

theorem optOp_assoc {α : Type} {op : α → α → α} (h : ∀ a b c, op (op a b) c = op a (op b c))
    (a b c : Option α) : optOp op (optOp op a b) c = optOp op a (optOp op b c) := by
  cases a <;> cases b <;> cases c <;> simp [optOp, h]

theorem optOp_none_right {α : Type} (op : α → α → α) (a : Option α) : optOp op a none = a := by
  cases a <;> rfl

theorem reduceSeq_join {α : Type} {op : α → α → α} (h : ∀ a b c, op (op a b) c = op a (op b c))
    (l r : List α) : reduceSeq op (l ++ r) = optOp op (reduceSeq op l) (reduceSeq op r) := by
  induction r using List.reverseRecOn with
  | nil => simp [reduceSeq, optOp_none_right]
  | append_singleton r x ih =>
    have e1 : ∀ m : List α, reduceSeq op (m ++ [x]) = optOp op (reduceSeq op m) (some x) := by
      intro m; unfold reduceSeq; rw [List.foldl_append]; rfl
    rw [← List.append_assoc, e1, e1, ih, optOp_assoc h]

/-- For an associative choice the split tree is irrelevant. -/
theorem split_reduce_eq {α : Type} {op : α → α → α} (h : ∀ a b c, op (op a b) c = op a (op b c))
    (sp : Split) (l : List α) : sp.reduce (reduceSeq op) (optOp op) l = reduceSeq op l := by
  induction sp generalizing l with
  | leaf => rfl
  | node k a b iha ihb =>
    simp only [Split.reduce]
    rw [iha, ihb, ← reduceSeq_join h, List.take_append_drop]

theorem minOp_assoc {α : Type} (f : α → F64) (a b c : α) :
    minOp f (minOp f a b) c = minOp f a (minOp f b c) := by
  unfold minOp
  simp only [F64.tlt, decide_eq_true_eq]
  split_ifs <;> first | rfl | omega

theorem maxOp_assoc {α : Type} (f : α → F64) (a b c : α) :
    maxOp f (maxOp f a b) c = maxOp f a (maxOp f b c) := by
  unfold maxOp
  simp only [F64.tlt, decide_eq_true_eq]
  split_ifs <;> first | rfl | omega

end GS
