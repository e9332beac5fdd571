/- Checkpoint file names. -/
import Verif.Model.Checkpoint

namespace GS
namespace Name

theorem parseDigits_append (a b : List Char) : ∀ acc,
    parseDigits acc (a ++ b) = (parseDigits acc a).bind fun x => parseDigits x b := by
  induction a with
  | nil => intro acc; rfl
  | cons c a ih =>
    intro acc
    simp only [List.cons_append, parseDigits]
    cases hd : digit? c with
    | none => rfl
    | some d =>
      dsimp only
      by_cases h : acc * 10 + d < 2 ^ 64
      · rw [if_pos h, if_pos h, ih]
      · rw [if_neg h, if_neg h]; rfl

theorem digit?_ofNat : ∀ d < 10, digit? (Char.ofNat (48 + d)) = some d := by decide

theorem parseDigits_dec (f : Nat) : ∀ x, x < f → x < 2 ^ 64 → parseDigits 0 (decAux f x) = some x := by
  induction f with
  | zero => intro x h; omega
  | succ f ih =>
    intro x hx hx'
    unfold decAux
    by_cases h : x < 10
    · rw [if_pos h]
      simp only [parseDigits, digit?_ofNat x h, Nat.zero_mul, Nat.zero_add, hx', if_true]
    · rw [if_neg h, parseDigits_append, ih (x / 10) (by omega) (by omega), Option.bind_some]
      have h1 : x / 10 * 10 + x % 10 = x := by omega
      simp only [parseDigits, digit?_ofNat (x % 10) (by omega), h1, hx', if_true]

theorem parseDigits_decimal {x : Nat} (h : x < 2 ^ 64) : parseDigits 0 (decimal x) = some x :=
  parseDigits_dec (x + 1) x (by omega) h

theorem parseDigits_zeros (k : Nat) : parseDigits 0 (List.replicate k '0') = some 0 := by
  induction k with
  | zero => rfl
  | succ k ih =>
    have h0 : digit? '0' = some 0 := by decide
    simp only [List.replicate_succ, parseDigits, h0, Nat.zero_mul, Nat.zero_add]
    rw [if_pos (by decide)]
    exact ih

theorem parseDigits_fmt6 {x : Nat} (h : x < 2 ^ 64) : parseDigits 0 (fmt6 x) = some x := by
  rw [fmt6, parseDigits_append, parseDigits_zeros, Option.bind_some, parseDigits_decimal h]

theorem parse_of_digits {s : List Char} {x : Nat} (hne : s ≠ []) (h : parseDigits 0 s = some x) :
    parse s = some x := by
  cases s with
  | nil => exact absurd rfl hne
  | cons c cs =>
    simp only [parse]
    by_cases hc : c = '+'
    · subst hc
      have h1 : digit? '+' = none := by decide
      simp [parseDigits, h1] at h
    · rw [if_neg hc, h]

theorem decAux_ne_nil {f : Nat} (x : Nat) (hf : 0 < f) : decAux f x ≠ [] := by
  cases f with
  | zero => omega
  | succ f =>
    unfold decAux
    split <;> simp

theorem fmt6_ne_nil (x : Nat) : fmt6 x ≠ [] := by
  unfold fmt6
  have := decAux_ne_nil x (Nat.succ_pos x)
  simp only [ne_eq, List.append_eq_nil_iff, not_and]
  intro _ h
  exact this h

/-- The formatted number parses back, for every `usize`. -/
theorem parse_fmt6 {x : Nat} (h : x < 2 ^ 64) : parse (fmt6 x) = some x :=
  parse_of_digits (fmt6_ne_nil x) (parseDigits_fmt6 h)

/-- The number written in decimal characters. -/
def value (s : List Char) : Nat := s.foldl (fun a c => a * 10 + (c.toNat - 48)) 0

/-- A decimal digit. -/
def IsDigit (c : Char) : Prop := 48 ≤ c.toNat ∧ c.toNat ≤ 57

theorem parseDigits_iff (s : List Char) : ∀ a k, a < 2 ^ 64 → (parseDigits a s = some k ↔
    (∀ c ∈ s, IsDigit c) ∧ s.foldl (fun a c => a * 10 + (c.toNat - 48)) a = k ∧ k < 2 ^ 64) := by
  have grow : ∀ (s : List Char) a, a ≤ s.foldl (fun a c => a * 10 + (c.toNat - 48)) a := by
    intro s
    induction s with
    | nil => intro a; exact Nat.le_refl _
    | cons c s ih =>
      intro a
      refine Nat.le_trans ?_ (ih (a * 10 + (c.toNat - 48)))
      omega
  induction s with
  | nil =>
    intro a k ha
    simp only [parseDigits, List.foldl_nil, Option.some.injEq, List.not_mem_nil, false_implies, implies_true, true_and]
    constructor
    · rintro rfl; exact ⟨rfl, ha⟩
    · exact fun h => h.1
  | cons c s ih =>
    intro a k ha
    simp only [parseDigits, List.foldl_cons, List.forall_mem_cons, digit?]
    by_cases hc : 48 ≤ c.toNat ∧ c.toNat ≤ 57
    · rw [if_pos hc]
      dsimp only
      by_cases hb : a * 10 + (c.toNat - 48) < 2 ^ 64
      · rw [if_pos hb, ih _ _ hb]
        exact ⟨fun h => ⟨⟨hc, h.1⟩, h.2⟩, fun h => ⟨h.1.2, h.2⟩⟩
      · rw [if_neg hb]
        refine ⟨fun h => (by cases h), fun h => ?_⟩
        have := grow s (a * 10 + (c.toNat - 48))
        rw [h.2.1] at this
        omega
    · rw [if_neg hc]
      exact ⟨fun h => (by cases h), fun h => absurd h.1.1 hc⟩

/-- What `str::parse::<usize>` accepts: a nonempty row of digits whose value fits, with or without a plus sign. -/
theorem parse_iff (s : List Char) (k : Nat) : parse s = some k ↔
    ∃ ds, ds ≠ [] ∧ (s = ds ∨ s = '+' :: ds) ∧ (∀ c ∈ ds, IsDigit c) ∧ value ds = k ∧ k < 2 ^ 64 := by
  have hp : ¬ IsDigit '+' := by unfold IsDigit; decide
  cases s with
  | nil =>
    simp only [parse]
    refine ⟨fun h => (by cases h), ?_⟩
    rintro ⟨ds, h, h' | h', _⟩
    · exact absurd h'.symm h
    · cases h'
  | cons c cs =>
    simp only [parse]
    by_cases hc : c = '+'
    · subst hc
      rw [if_pos rfl]
      by_cases he : cs = []
      · subst he
        rw [if_pos rfl]
        refine ⟨fun h => (by cases h), ?_⟩
        rintro ⟨ds, h, rfl | h', hd, _⟩
        · exact absurd (hd '+' (by simp)) hp
        · cases h'; exact absurd rfl h
      · rw [if_neg he, parseDigits_iff cs 0 k (by decide)]
        refine ⟨fun h => ⟨cs, he, Or.inr rfl, h⟩, ?_⟩
        rintro ⟨ds, h, rfl | h', hd, h2⟩
        · exact absurd (hd '+' (by simp)) hp
        · cases h'; exact ⟨hd, h2⟩
    · rw [if_neg hc, parseDigits_iff (c :: cs) 0 k (by decide)]
      refine ⟨fun h => ⟨c :: cs, by simp, Or.inl rfl, h⟩, ?_⟩
      rintro ⟨ds, h, rfl | h', h2⟩
      · exact h2
      · cases h'; exact absurd rfl hc

theorem ofNat_toNat : ∀ d < 10, (Char.ofNat (48 + d)).toNat - 48 = d := by decide

theorem value_dec (f : Nat) : ∀ x, x < f → ∀ z, z.foldl (fun a c => a * 10 + (c.toNat - 48)) 0 = 0 →
    (z ++ decAux f x).foldl (fun a c => a * 10 + (c.toNat - 48)) 0 = x := by
  induction f with
  | zero => intro x h; omega
  | succ f ih =>
    intro x hx z hz
    unfold decAux
    by_cases h : x < 10
    · rw [if_pos h, List.foldl_append, hz]
      simp [ofNat_toNat x h]
    · rw [if_neg h, ← List.append_assoc, List.foldl_append, ih (x / 10) (by omega) z hz]
      simp only [List.foldl_cons, List.foldl_nil]
      rw [ofNat_toNat (x % 10) (by omega)]
      omega

/-- Formatting is injective for all numbers. -/
theorem value_fmt6 (x : Nat) : value (fmt6 x) = x := by
  refine value_dec (x + 1) x (by omega) _ ?_
  generalize 6 - (decimal x).length = k
  induction k with
  | zero => rfl
  | succ k ih => simpa [List.replicate_succ] using ih

theorem digit_of_ofNat : ∀ d < 10, Char.ofNat (48 + d) ≠ '_' := by decide

theorem not_mem_decAux (f : Nat) : ∀ x, '_' ∉ decAux f x := by
  induction f with
  | zero => intro x h; cases h
  | succ f ih =>
    intro x h
    unfold decAux at h
    split at h
    · rename_i hx
      exact digit_of_ofNat x hx (List.mem_singleton.1 h).symm
    · rcases List.mem_append.1 h with h | h
      · exact ih _ h
      · exact digit_of_ofNat (x % 10) (by omega) (List.mem_singleton.1 h).symm

theorem not_mem_fmt6 (x : Nat) : '_' ∉ fmt6 x := by
  intro h
  rcases List.mem_append.1 h with h | h
  · have := List.eq_of_mem_replicate h
    exact absurd this (by decide)
  · exact not_mem_decAux _ _ h

/-! ### Byte offsets -/

theorem bytes_append (a b : List Char) : bytes (a ++ b) = bytes a + bytes b := by
  simp [bytes]

theorem bytes_ext : bytes ext = 4 := by decide

theorem takeBytes_append (a b : List Char) : takeBytes (bytes a) (a ++ b) = some a := by
  induction a with
  | nil => cases b <;> rfl
  | cons c a ih =>
    have h1 : bytes (c :: a) = c.utf8Size + bytes a := by simp [bytes]
    have h2 := c.utf8Size_pos
    obtain ⟨k, hk⟩ : ∃ k, bytes (c :: a) = k + 1 := ⟨bytes (c :: a) - 1, by omega⟩
    rw [hk, List.cons_append, takeBytes, if_pos (by omega),
      show k + 1 - c.utf8Size = bytes a from by omega, ih]
    rfl

theorem dropBytes_append (a b : List Char) : dropBytes (bytes a) (a ++ b) = some b := by
  induction a with
  | nil => cases b <;> rfl
  | cons c a ih =>
    have h1 : bytes (c :: a) = c.utf8Size + bytes a := by simp [bytes]
    have h2 := c.utf8Size_pos
    obtain ⟨k, hk⟩ : ∃ k, bytes (c :: a) = k + 1 := ⟨bytes (c :: a) - 1, by omega⟩
    rw [hk, List.cons_append, dropBytes, if_pos (by omega),
      show k + 1 - c.utf8Size = bytes a from by omega, ih]

/-- The slice between the pattern and the extension. -/
theorem slice_mid (p s e : List Char) (he : bytes e = 4) :
    slice (p ++ s ++ e) (bytes p) (bytes (p ++ s ++ e) - 4) = some s := by
  have h1 : bytes (p ++ s ++ e) - 4 = bytes (p ++ s) := by rw [bytes_append (p ++ s) e, he]; omega
  unfold slice
  rw [h1, if_pos (by rw [bytes_append]; omega), takeBytes_append, Option.bind_some, dropBytes_append]

/-- A name that starts with a pattern ending in `_` and ends with `.bin` has the two apart. -/
theorem apart {name f : List Char} (h1 : (name ++ ['_']).isPrefixOf f = true)
    (h2 : ext.isSuffixOf f = true) : ∃ s, f = name ++ ['_'] ++ s ++ ext := by
  rw [List.isPrefixOf_iff_prefix] at h1
  rw [List.isSuffixOf_iff_suffix] at h2
  obtain ⟨t, ht⟩ := h1
  obtain ⟨u, hu⟩ := h2
  have h := ht.trans hu.symm
  rw [List.append_eq_append_iff] at h
  rcases h with ⟨a, h3, h4⟩ | ⟨a, h3, h4⟩
  · exact ⟨a, by rw [← ht, h4]; simp⟩
  · rcases List.eq_nil_or_concat a with h5 | ⟨a', x, h5⟩
    · subst h5
      exact ⟨[], by rw [← ht, List.append_nil]; exact congrArg _ h4.symm⟩
    · rw [h5, List.concat_eq_append, ← List.append_assoc] at h3
      have h6 := (List.append_inj' h3 rfl).2
      have h7 : '_' ∈ ext := by
        rw [h4, h5, List.concat_eq_append]
        simp [← List.singleton_inj.1 h6]
      exact absurd h7 (by decide)

/-- What the manager reads from a name. -/
theorem iteration_eq (name f : List Char) :
    (∃ s, f = name ++ ['_'] ++ s ++ ext ∧ iteration name f = some (parse s)) ∨
    ((¬ ∃ s, f = name ++ ['_'] ++ s ++ ext) ∧ iteration name f = some none) := by
  by_cases h : ((name ++ ['_']).isPrefixOf f && ext.isSuffixOf f) = true
  · left
    rw [Bool.and_eq_true] at h
    obtain ⟨s, hs⟩ := apart h.1 h.2
    refine ⟨s, hs, ?_⟩
    unfold iteration
    simp only [h.1, h.2, Bool.and_self, if_true]
    rw [hs, slice_mid _ _ _ bytes_ext]
  · right
    refine ⟨?_, ?_⟩
    · rintro ⟨s, hs⟩
      apply h
      rw [Bool.and_eq_true, List.isPrefixOf_iff_prefix, List.isSuffixOf_iff_suffix]
      exact ⟨⟨s ++ ext, by rw [hs]; simp⟩, ⟨name ++ ['_'] ++ s, hs.symm⟩⟩
    · unfold iteration
      simp only [h]
      rfl

theorem iteration_ne_none (name f : List Char) : iteration name f ≠ none := by
  rcases iteration_eq name f with ⟨s, -, h⟩ | ⟨-, h⟩ <;> rw [h] <;> simp

theorem iteration_some {name f : List Char} {i : Nat} :
    iteration name f = some (some i) ↔ ∃ s, f = name ++ ['_'] ++ s ++ ext ∧ parse s = some i := by
  constructor
  · intro h
    rcases iteration_eq name f with ⟨s, h1, h2⟩ | ⟨-, h2⟩
    · rw [h2] at h
      exact ⟨s, h1, Option.some.inj h⟩
    · rw [h2] at h; simp at h
  · rintro ⟨s, h1, h2⟩
    rcases iteration_eq name f with ⟨s', h3, h4⟩ | ⟨h3, -⟩
    · have h5 : s' = s := by
        have := h3.symm.trans h1
        exact List.append_cancel_left (List.append_cancel_right this)
      rw [h4, h5, h2]
    · exact absurd ⟨s, h1⟩ h3

theorem file_keep (name : List Char) (i : Nat) :
    file true name i = name ++ ['_'] ++ fmt6 i ++ ext := rfl

theorem file_plain (name : List Char) (i : Nat) : file false name i = name ++ ext := rfl

theorem iteration_file (name : List Char) {i : Nat} (h : i < 2 ^ 64) :
    iteration name (file true name i) = some (some i) :=
  iteration_some.2 ⟨fmt6 i, rfl, parse_fmt6 h⟩

theorem file_inj {name : List Char} {i j : Nat} (h : file true name i = file true name j) : i = j := by
  rw [file_keep, file_keep] at h
  have h1 := List.append_cancel_left (List.append_cancel_right h)
  rw [← value_fmt6 i, ← value_fmt6 j, h1]

/-- Characters of a parsable string: an optional sign and digits. -/
theorem digits_of_parse {acc x : Nat} {s : List Char} (h : parseDigits acc s = some x) : '_' ∉ s := by
  induction s generalizing acc with
  | nil => intro h; cases h
  | cons c cs ih =>
    intro hm
    simp only [parseDigits] at h
    cases hd : digit? c with
    | none => rw [hd] at h; cases h
    | some d =>
      rw [hd] at h
      dsimp only at h
      split at h
      · rcases List.mem_cons.1 hm with h1 | h1
        · rw [← h1, show digit? '_' = none from by decide] at hd; cases hd
        · exact ih h h1
      · cases h

theorem parse_no_underscore {x : Nat} {s : List Char} (h : parse s = some x) : '_' ∉ s := by
  cases s with
  | nil => intro h; cases h
  | cons c cs =>
    simp only [parse] at h
    by_cases hc : c = '+'
    · rw [if_pos hc] at h
      split at h
      · cases h
      · intro hm
        rcases List.mem_cons.1 hm with h1 | h1
        · rw [hc] at h1; exact absurd h1 (by decide)
        · exact digits_of_parse h h1
    · rw [if_neg hc] at h
      exact digits_of_parse h

/-- Splitting at the last underscore is unique. -/
theorem last_underscore {a b s t : List Char} (hs : '_' ∉ s) (ht : '_' ∉ t)
    (h : a ++ ['_'] ++ s = b ++ ['_'] ++ t) : a = b ∧ s = t := by
  rw [List.append_assoc, List.append_assoc, List.append_eq_append_iff] at h
  rcases h with ⟨c, h1, h2⟩ | ⟨c, h1, h2⟩
  · cases c with
    | nil => simp at h1 h2; exact ⟨h1.symm, h2⟩
    | cons x c =>
      simp only [List.cons_append, List.nil_append, List.cons.injEq] at h2
      exact absurd (by rw [h2.2]; simp) hs
  · cases c with
    | nil => simp at h1 h2; exact ⟨h1, h2.symm⟩
    | cons x c =>
      simp only [List.cons_append, List.nil_append, List.cons.injEq] at h2
      exact absurd (by rw [h2.2]; simp) ht

end Name
end GS
