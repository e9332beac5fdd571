/- Parallel collection under every completion order. -/
import Verif.Lemmas.Steps

namespace GS
variable {n : Nat}

/-- Every task of a collection of size `k` completes. -/
def Covers (order : List Nat) (k : Nat) : Prop := ∀ i < k, i ∈ order

theorem parSlots_some {α β : Type} (f : α → β) (l : List α) (order : List Nat)
    (s : List (Option β)) (hlen : s.length = l.length) (i : Nat) (a : α) (ha : l[i]? = some a)
    (h : s[i]? = some (some (f a)) ∨ i ∈ order) :
    (order.foldl (fun slots i => match l[i]? with
      | some a => slots.set i (some (f a))
      | none => slots) s)[i]? = some (some (f a)) := by
  induction order generalizing s with
  | nil => simpa using h
  | cons j order ih =>
    rw [List.foldl_cons]
    apply ih
    · split <;> simp [hlen]
    · by_cases hj : j = i
      · left
        subst hj
        rw [ha]
        dsimp only
        rw [List.getElem?_set_self]
        rw [hlen]
        exact (List.getElem?_eq_some_iff.1 ha).1
      · rcases h with h | h
        · left
          split
          · rw [List.getElem?_set_ne hj]; exact h
          · exact h
        · right
          rw [List.mem_cons] at h
          rcases h with h | h
          · exact absurd h.symm hj
          · exact h

/-- When all tasks complete, every slot holds its result. -/
theorem parSlots_cover {α β : Type} (f : α → β) (l : List α) (order : List Nat)
    (h : Covers order l.length) : Act.parSlots f l order = l.map fun a => some (f a) := by
  apply List.ext_getElem?
  intro i
  unfold Act.parSlots
  have hlen := (parSlots_inv f l order (l.map fun _ => none)
        (fun i b hb => by simp only [List.getElem?_map, Option.map_eq_some_iff] at hb
                          obtain ⟨_, _, h⟩ := hb
                          cases h) (by simp)).1
  by_cases hi : i < l.length
  · refine (parSlots_some f l order (l.map fun _ => none) (by simp) i l[i] (by simp [hi])
      (Or.inr (h i hi))).trans ?_
    simp [hi]
  · rw [List.getElem?_eq_none (by
      refine Nat.le_trans (Nat.le_of_eq hlen) ?_
      omega), List.getElem?_eq_none (by simp; omega)]

theorem optAll_map {α β : Type} (l : List α) (f : α → β) :
    optAll (l.map fun a => some (f a)) = some (l.map f) := by
  induction l with
  | nil => rfl
  | cons a l ih => simp [optAll, ih]

/-- All results of a list of tasks, or the error of the first failing one in list order. -/
def seqCollect {β : Type} (rs : List (Except Err β)) : Except Err (List β) :=
  rs.foldr (fun r acc => match r, acc with
        | .ok b, .ok bs => .ok (b :: bs)
        | .error e, _ => .error e
        | _, .error e => .error e) (.ok [])

theorem seqCollect_ok {β : Type} (r : List β) : seqCollect (r.map Except.ok) = .ok r := by
  unfold seqCollect
  induction r with
  | nil => rfl
  | cons b r ih => rw [List.map_cons, List.foldr_cons, ih]

/-- Without failures the collection is the list of results, whatever the order. -/
theorem parCollect_success {α β : Type} {f : α → Except Err β} {l : List α} {order : List Nat}
    (h : Covers order l.length) {r : List β} (hr : l.map f = r.map Except.ok) :
    Act.parCollect f l order = .ok r := by
  unfold Act.parCollect
  have hok : ∀ a ∈ l, ∃ b, f a = .ok b := by
    intro a ha
    have : f a ∈ r.map Except.ok := by rw [← hr]; exact List.mem_map.2 ⟨a, ha, rfl⟩
    obtain ⟨b, _, hb⟩ := List.mem_map.1 this
    exact ⟨b, hb.symm⟩
  rw [List.findSome?_eq_none_iff.2]
  · dsimp only
    rw [parSlots_cover f l order h, optAll_map]
    dsimp only
    rw [hr]
    exact seqCollect_ok r
  · intro i _
    cases hl : l[i]? with
    | none => rfl
    | some a =>
      obtain ⟨b, hb⟩ := hok a (List.mem_of_getElem? hl)
      simp [hb]

/-- A failure of the collection is the failure of one of its tasks. -/
theorem parCollect_error {α β : Type} {f : α → Except Err β} {l : List α} {order : List Nat}
    (h : Covers order l.length) {e : Err} (he : Act.parCollect f l order = .error e) :
    ∃ a ∈ l, f a = .error e := by
  by_cases hall : ∀ a ∈ l, ∃ b, f a = .ok b
  · exfalso
    have : ∃ r : List β, l.map f = r.map Except.ok := by
      clear h he
      induction l with
      | nil => exact ⟨[], rfl⟩
      | cons a l ih =>
        obtain ⟨b, hb⟩ := hall a (by simp)
        obtain ⟨r, hr⟩ := ih fun x hx => hall x (by simp [hx])
        exact ⟨b :: r, by simp [hb, hr]⟩
    obtain ⟨r, hr⟩ := this
    rw [parCollect_success h hr] at he
    cases he
  · have : ∃ a ∈ l, ∃ x, f a = .error x := by
      by_contra hc
      apply hall
      intro a ha
      cases hf : f a with
      | ok b => exact ⟨b, rfl⟩
      | error x => exact absurd ⟨a, ha, x, hf⟩ hc
    obtain ⟨a, ha, x, hx⟩ := this
    obtain ⟨i, hi, hia⟩ := List.getElem_of_mem ha
    unfold Act.parCollect at he
    split at he
    · rename_i y hfs
      cases he
      obtain ⟨j, _, hj⟩ := List.exists_of_findSome?_eq_some hfs
      cases hl : l[j]? with
      | none => rw [hl] at hj; cases hj
      | some b =>
        rw [hl] at hj
        simp only [Option.bind_some] at hj
        refine ⟨b, List.mem_of_getElem? hl, ?_⟩
        split at hj
        · cases hj; assumption
        · cases hj
    · rename_i hfs
      exfalso
      have := List.findSome?_eq_none_iff.1 hfs i (h i hi)
      rw [List.getElem?_eq_getElem hi] at this
      simp only [Option.bind_some] at this
      rw [hia, hx] at this
      cases this

/-- A failing task makes the collection fail. -/
theorem parCollect_fails {α β : Type} {f : α → Except Err β} {l : List α} {order : List Nat}
    {a : α} (ha : a ∈ l) {e : Err} (he : f a = .error e) : ∃ e', Act.parCollect f l order = .error e' := by
  cases h : Act.parCollect f l order with
  | error e' => exact ⟨e', rfl⟩
  | ok r =>
    have := parCollect_ok h
    have hm : f a ∈ r.map Except.ok := by rw [← this]; exact List.mem_map.2 ⟨a, ha, rfl⟩
    obtain ⟨b, _, hb⟩ := List.mem_map.1 hm
    rw [he] at hb; cases hb

/-- Two completion orders give the same collection unless two tasks fail with different errors. -/
theorem parCollect_order {α β : Type} {f : α → Except Err β} {l : List α} {order order' : List Nat}
    (h : Covers order l.length) (h' : Covers order' l.length)
    (hu : ∀ a ∈ l, ∀ b ∈ l, ∀ x y, f a = .error x → f b = .error y → x = y) :
    Act.parCollect f l order = Act.parCollect f l order' := by
  cases h1 : Act.parCollect f l order with
  | ok r => exact (parCollect_success h' (parCollect_ok h1)).symm
  | error e =>
    obtain ⟨a, ha, hae⟩ := parCollect_error h h1
    obtain ⟨e', he'⟩ := parCollect_fails (order := order') ha hae
    obtain ⟨b, hb, hbe⟩ := parCollect_error h' he'
    rw [he', hu a ha b hb e e' hae hbe]

end GS
