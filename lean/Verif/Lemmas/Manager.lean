/- Directory operations and the scans of the checkpoint manager. -/
import Verif.Lemmas.Names

namespace GS

namespace Dir

/-- File names in the directory. -/
def names (d : Dir) : List FName := d.map Prod.fst

theorem lookup_nil (f : FName) : lookup [] f = none := rfl

theorem lookup_cons (e : FName × Bytes) (d : Dir) (f : FName) :
    lookup (e :: d) f = if e.1 = f then some e.2 else lookup d f := by
  unfold lookup
  by_cases h : e.1 = f <;> simp [List.find?_cons, h]

theorem lookup_append (d d' : Dir) (f : FName) :
    lookup (d ++ d') f = (lookup d f).or (lookup d' f) := by
  induction d with
  | nil => simp [lookup_nil]
  | cons e d ih =>
    rw [List.cons_append, lookup_cons, lookup_cons, ih]
    by_cases h : e.1 = f <;> simp [h]

theorem lookup_isSome {d : Dir} {f : FName} : (lookup d f).isSome = true ↔ f ∈ names d := by
  induction d with
  | nil => simp [lookup_nil, names]
  | cons e d ih =>
    rw [lookup_cons]
    by_cases h : e.1 = f
    · simp [h, names]
    · rw [if_neg h, ih]
      have h' : f ≠ e.1 := fun hc => h hc.symm
      simp [names, h']

theorem lookup_eq_none {d : Dir} {f : FName} : lookup d f = none ↔ f ∉ names d := by
  rw [← lookup_isSome]
  cases lookup d f <;> simp

theorem any_name {d : Dir} {f : FName} :
    d.any (fun e => decide (e.1 = f)) = true ↔ f ∈ names d := by
  simp [names, List.any_eq_true]

theorem lookup_map (d : Dir) (f : FName) (b : Bytes) (g : FName) :
    lookup (d.map fun e => if e.1 = f then (f, b) else e) g =
      if g = f then (lookup d g).map fun _ => b else lookup d g := by
  induction d with
  | nil => simp [lookup_nil]
  | cons e d ih =>
    rw [List.map_cons, lookup_cons, lookup_cons, ih]
    by_cases h : e.1 = f
    · rw [if_pos h]
      by_cases hg : g = f
      · subst hg; simp [h]
      · have h' : f ≠ g := fun hc => hg hc.symm
        simp [hg, h, h']
    · rw [if_neg h]
      by_cases hg : g = f
      · subst hg; simp [h]
      · simp [hg]

theorem lookup_write (d : Dir) (f : FName) (b : Bytes) (g : FName) :
    lookup (write d f b) g = if g = f then some b else lookup d g := by
  unfold write
  by_cases h : d.any (fun e => decide (e.1 = f)) = true
  · rw [if_pos h, lookup_map]
    by_cases hg : g = f
    · rw [if_pos hg, if_pos hg, hg]
      have := lookup_isSome.2 (any_name.1 h)
      cases hl : lookup d f with
      | none => rw [hl] at this; cases this
      | some x => rfl
    · rw [if_neg hg, if_neg hg]
  · rw [if_neg h, lookup_append, lookup_cons, lookup_nil]
    by_cases hg : g = f
    · subst hg
      rw [if_pos rfl, if_pos rfl, lookup_eq_none.2 fun hc => h (any_name.2 hc)]
      rfl
    · rw [if_neg hg, if_neg fun hc => hg (Eq.symm hc)]
      simp

theorem names_write (d : Dir) (f : FName) (b : Bytes) :
    names (write d f b) = if f ∈ names d then names d else names d ++ [f] := by
  unfold write
  by_cases h : d.any (fun e => decide (e.1 = f)) = true
  · rw [if_pos h, if_pos (any_name.1 h)]
    clear h
    induction d with
    | nil => rfl
    | cons e d ih =>
      simp only [names, List.map_cons, List.map_map, List.cons.injEq] at ih ⊢
      refine ⟨?_, ih⟩
      by_cases he : e.1 = f <;> simp [he]
  · rw [if_neg h, if_neg fun hc => h (any_name.2 hc)]
    simp [names]

theorem mem_names_write {d : Dir} {f : FName} {b : Bytes} {g : FName} :
    g ∈ names (write d f b) ↔ g = f ∨ g ∈ names d := by
  rw [names_write]
  by_cases h : f ∈ names d
  · rw [if_pos h]
    exact ⟨Or.inr, fun hc => hc.elim (fun hc => hc ▸ h) id⟩
  · rw [if_neg h]; simp [or_comm]

theorem nodup_write {d : Dir} (hd : (names d).Nodup) (f : FName) (b : Bytes) :
    (names (write d f b)).Nodup := by
  rw [names_write]
  by_cases h : f ∈ names d
  · rw [if_pos h]; exact hd
  · rw [if_neg h]
    rw [List.nodup_append]
    exact ⟨hd, by simp, fun a ha b hb hab => h (by rw [← List.mem_singleton.1 hb, ← hab]; exact ha)⟩

theorem lookup_of_mem {d : Dir} (hd : (names d).Nodup) {e : FName × Bytes} (he : e ∈ d) :
    lookup d e.1 = some e.2 := by
  induction d with
  | nil => cases he
  | cons x d ih =>
    rw [lookup_cons]
    have hn := List.nodup_cons.1 hd
    rcases List.mem_cons.1 he with h | h
    · rw [h, if_pos rfl]
    · by_cases hx : x.1 = e.1
      · exact absurd (by rw [hx]; exact List.mem_map.2 ⟨e, h, rfl⟩) hn.1
      · rw [if_neg hx, ih hn.2 h]

theorem mem_of_lookup {d : Dir} {f : FName} {b : Bytes} (h : lookup d f = some b) : (f, b) ∈ d := by
  induction d with
  | nil => cases h
  | cons x d ih =>
    rw [lookup_cons] at h
    by_cases hx : x.1 = f
    · rw [if_pos hx] at h
      have : x = (f, b) := Prod.ext hx (Option.some.inj h)
      rw [this]; exact List.mem_cons_self
    · rw [if_neg hx] at h
      exact List.mem_cons_of_mem _ (ih h)

/-- The listing order does not matter for the contents of files. -/
theorem lookup_perm {d d' : Dir} (hp : d'.Perm d) (hd : (names d).Nodup) (f : FName) :
    lookup d' f = lookup d f := by
  have hd' : (names d').Nodup := (hp.map _).nodup_iff.2 hd
  cases h : lookup d f with
  | some b => exact lookup_of_mem hd' (hp.mem_iff.2 (mem_of_lookup h))
  | none =>
    rw [lookup_eq_none] at h ⊢
    exact fun hc => h ((hp.map _).mem_iff.1 hc)

theorem lookup_remove (d : Dir) (f g : FName) :
    lookup (remove d f) g = if g = f then none else lookup d g := by
  induction d with
  | nil => simp [remove, lookup_nil]
  | cons e d ih =>
    unfold remove at ih ⊢
    rw [List.filter_cons]
    by_cases h : e.1 = f
    · rw [if_neg (by simp [h]), ih, lookup_cons]
      by_cases hg : g = f
      · rw [if_pos hg, if_pos hg]
      · rw [if_neg hg, if_neg hg, if_neg (by rw [h]; exact fun hc => hg hc.symm)]
    · rw [if_pos (by simp [h]), lookup_cons, lookup_cons, ih]
      by_cases hg : g = f
      · rw [if_pos hg, if_pos hg, if_neg (by rw [hg]; exact h)]
      · rw [if_neg hg, if_neg hg]

end Dir

namespace Manager
open Dir

/-- Iteration number the manager reads from a file name. -/
def iter (name : List Char) (f : FName) : Option Nat := (entryIter name f).getD none

theorem entryIter_eq (name : List Char) (f : FName) : entryIter name f = some (iter name f) := by
  unfold iter
  cases f with
  | other _ => rfl
  | utf8 cs =>
    cases h : entryIter name (.utf8 cs) with
    | none => exact absurd h (Name.iteration_ne_none name cs)
    | some x => rfl

theorem iter_some {name : List Char} {f : FName} {i : Nat} :
    iter name f = some i ↔
      ∃ s, f = .utf8 (name ++ ['_'] ++ s ++ Name.ext) ∧ Name.parse s = some i := by
  cases f with
  | other _ =>
    constructor
    · intro h; cases h
    · rintro ⟨s, h, -⟩; cases h
  | utf8 cs =>
    have h1 := entryIter_eq name (.utf8 cs)
    constructor
    · intro h
      rw [h] at h1
      obtain ⟨s, h2, h3⟩ := Name.iteration_some.1 h1
      exact ⟨s, by rw [h2], h3⟩
    · rintro ⟨s, h, h3⟩
      have h4 := Name.iteration_some.2 ⟨s, FName.utf8.inj h, h3⟩
      exact Option.some.inj (h1.symm.trans h4)

theorem iter_file (name : List Char) {i : Nat} (h : i < 2 ^ 64) :
    iter name (.utf8 (Name.file true name i)) = some i :=
  iter_some.2 ⟨Name.fmt6 i, rfl, Name.parse_fmt6 h⟩

theorem scan_cons (name : List Char) (e : FName × Bytes) (rest : Dir) (it : Nat) (best : Option FName) :
    scan name (e :: rest) it best =
      match iter name e.1 with
      | none => scan name rest it best
      | some i => if it < i then scan name rest i (some e.1) else scan name rest it best := by
  rw [scan, entryIter_eq]
  cases iter name e.1 <;> rfl

/-- The scan finds the first file among those with the largest iteration above the start value. -/
theorem scan_spec (name : List Char) : ∀ (d : Dir) (it : Nat) (best : Option FName),
    (scan name d it best = .ok best ∧ ∀ e ∈ d, ∀ j, iter name e.1 = some j → j ≤ it) ∨
    ∃ pre e post i, d = pre ++ e :: post ∧ scan name d it best = .ok (some e.1) ∧
      iter name e.1 = some i ∧ it < i ∧ (∀ x ∈ pre, ∀ j, iter name x.1 = some j → j < i) ∧
      (∀ x ∈ post, ∀ j, iter name x.1 = some j → j ≤ i) := by
  intro d
  induction d with
  | nil => intro it best; exact .inl ⟨rfl, fun e he => by cases he⟩
  | cons x d ih =>
    intro it best
    rw [scan_cons]
    cases hx : iter name x.1 with
    | none =>
      dsimp only
      rcases ih it best with ⟨h1, h2⟩ | ⟨pre, e, post, i, h1, h2, h3, h4, h5, h6⟩
      · refine .inl ⟨h1, fun e he j hj => ?_⟩
        rcases List.mem_cons.1 he with h | h
        · rw [h, hx] at hj; cases hj
        · exact h2 e h j hj
      · refine .inr ⟨x :: pre, e, post, i, by rw [h1]; rfl, h2, h3, h4, fun y hy j hj => ?_, h6⟩
        rcases List.mem_cons.1 hy with h | h
        · rw [h, hx] at hj; cases hj
        · exact h5 y h j hj
    | some k =>
      dsimp only
      by_cases hk : it < k
      · rw [if_pos hk]
        rcases ih k (some x.1) with ⟨h1, h2⟩ | ⟨pre, e, post, i, h1, h2, h3, h4, h5, h6⟩
        · exact .inr ⟨[], x, d, k, rfl, h1, hx, hk, (fun y hy => by cases hy), h2⟩
        · refine .inr ⟨x :: pre, e, post, i, by rw [h1]; rfl, h2, h3, by omega, fun y hy j hj => ?_, h6⟩
          rcases List.mem_cons.1 hy with h | h
          · rw [h, hx] at hj; cases hj; exact h4
          · exact h5 y h j hj
      · rw [if_neg hk]
        rcases ih it best with ⟨h1, h2⟩ | ⟨pre, e, post, i, h1, h2, h3, h4, h5, h6⟩
        · refine .inl ⟨h1, fun e he j hj => ?_⟩
          rcases List.mem_cons.1 he with h | h
          · rw [h, hx] at hj; cases hj; omega
          · exact h2 e h j hj
        · refine .inr ⟨x :: pre, e, post, i, by rw [h1]; rfl, h2, h3, h4, fun y hy j hj => ?_, h6⟩
          rcases List.mem_cons.1 hy with h | h
          · rw [h, hx] at hj; cases hj; omega
          · exact h5 y h j hj

theorem scan_ok (name : List Char) (d : Dir) (it : Nat) (best : Option FName) :
    ∃ r, scan name d it best = .ok r := by
  rcases scan_spec name d it best with ⟨h, -⟩ | ⟨_, _, _, _, -, h, -⟩ <;> exact ⟨_, h⟩

/-- `find_latest_checkpoint`, as a specification. -/
theorem findLatest_spec (m : Manager) (d : Dir) :
    (m.findLatest d = .err .notFound ∧ ∀ e ∈ d, ∀ j, iter m.name e.1 = some j → j = 0) ∨
    ∃ pre e post i, d = pre ++ e :: post ∧ m.findLatest d = .ok e.1 ∧
      iter m.name e.1 = some i ∧ 0 < i ∧ (∀ x ∈ pre, ∀ j, iter m.name x.1 = some j → j < i) ∧
      (∀ x ∈ post, ∀ j, iter m.name x.1 = some j → j ≤ i) := by
  unfold findLatest
  rcases scan_spec m.name d 0 none with ⟨h1, h2⟩ | ⟨pre, e, post, i, h1, h2, h3⟩
  · rw [h1]
    exact .inl ⟨rfl, fun e he j hj => Nat.le_zero.1 (h2 e he j hj)⟩
  · rw [h2]
    exact .inr ⟨pre, e, post, i, h1, rfl, h3⟩

/-- A file with the strictly largest positive iteration is found, whatever the listing order. -/
theorem findLatest_eq {m : Manager} {d : Dir} {f : FName} {i : Nat} (hf : f ∈ names d)
    (hi : iter m.name f = some i) (h0 : 0 < i)
    (hmax : ∀ g ∈ names d, ∀ j, iter m.name g = some j → j ≤ i)
    (huniq : ∀ g ∈ names d, iter m.name g = some i → g = f) : m.findLatest d = .ok f := by
  obtain ⟨e0, he0, rfl⟩ := List.mem_map.1 hf
  rcases findLatest_spec m d with ⟨-, h⟩ | ⟨pre, e, post, k, h1, h2, h3, -, h5, h6⟩
  · have := h e0 he0 i hi; omega
  · have hed : e ∈ d := by rw [h1]; simp
    have hk : k ≤ i := hmax _ (List.mem_map_of_mem hed) k h3
    have hik : i ≤ k := by
      rw [h1] at he0
      rcases List.mem_append.1 he0 with h | h
      · have := h5 e0 h i hi; omega
      · rcases List.mem_cons.1 h with h | h
        · rw [h, h3] at hi; cases hi; exact Nat.le_refl _
        · exact h6 e0 h i hi
    have : k = i := by omega
    subst this
    rw [h2, huniq _ (List.mem_map_of_mem hed) h3]

theorem findLatest_none {m : Manager} {d : Dir}
    (h : ∀ g ∈ names d, ∀ j, iter m.name g = some j → j = 0) : m.findLatest d = .err .notFound := by
  rcases findLatest_spec m d with ⟨h1, -⟩ | ⟨pre, e, post, k, h1, -, h3, h4, -⟩
  · exact h1
  · have := h _ (List.mem_map_of_mem (by rw [h1]; simp)) k h3
    omega

/-! ### Histories of saves -/

/-- The directory after a sequence of saves. -/
def saveAll (m : Manager) (d : Dir) (saves : List (Nat × WCkpt)) : Dir :=
  saves.foldl (fun d s => m.save d s.2 s.1) d

theorem nodup_saveAll {m : Manager} (saves : List (Nat × WCkpt)) : ∀ {d : Dir}, (names d).Nodup →
    (names (m.saveAll d saves)).Nodup := by
  induction saves with
  | nil => intro d h; exact h
  | cons s l ih => intro d h; exact ih (nodup_write h _ _)

theorem mem_names_saveAll {m : Manager} (saves : List (Nat × WCkpt)) : ∀ {d : Dir} {g : FName},
    g ∈ names (m.saveAll d saves) ↔
      (∃ s ∈ saves, g = .utf8 (Name.file m.keepAll m.name s.1)) ∨ g ∈ names d := by
  induction saves with
  | nil => intro d g; simp [saveAll]
  | cons s l ih =>
    intro d g
    show g ∈ names (m.saveAll (m.save d s.2 s.1) l) ↔ _
    rw [ih, save, mem_names_write]
    simp only [List.mem_cons, exists_eq_or_imp]
    constructor
    · rintro (h | h | h)
      · exact .inl (.inr h)
      · exact .inl (.inl h)
      · exact .inr h
    · rintro ((h | h) | h)
      · exact .inr (.inl h)
      · exact .inl h
      · exact .inr (.inr h)

/-- A file not written again keeps its contents. -/
theorem lookup_saveAll_other {m : Manager} (saves : List (Nat × WCkpt)) : ∀ {d : Dir} {g : FName},
    (∀ s ∈ saves, g ≠ .utf8 (Name.file m.keepAll m.name s.1)) →
      lookup (m.saveAll d saves) g = lookup d g := by
  induction saves with
  | nil => intro d g _; rfl
  | cons s l ih =>
    intro d g h
    show lookup (m.saveAll (m.save d s.2 s.1) l) g = _
    rw [ih fun s hs => h s (List.mem_cons_of_mem _ hs), save, lookup_write,
      if_neg (h s List.mem_cons_self)]

theorem saveAll_append (m : Manager) (d : Dir) (a b : List (Nat × WCkpt)) :
    m.saveAll d (a ++ b) = m.saveAll (m.saveAll d a) b := by
  simp [saveAll, List.foldl_append]

/-- The last save to a file determines its contents. -/
theorem lookup_saveAll {m : Manager} {d : Dir} {pre post : List (Nat × WCkpt)} {i : Nat} {c : WCkpt}
    (h : ∀ s ∈ post, Name.file m.keepAll m.name s.1 ≠ Name.file m.keepAll m.name i) :
    lookup (m.saveAll d (pre ++ (i, c) :: post)) (.utf8 (Name.file m.keepAll m.name i)) =
      some (Enc.ckpt m.feat c) := by
  rw [saveAll_append]
  show lookup (m.saveAll (m.save (m.saveAll d pre) c i) post) _ = _
  rw [lookup_saveAll_other post fun s hs hc => h s hs (FName.utf8.inj hc).symm, save, lookup_write,
    if_pos rfl]

/-! ### Cleanup -/

theorem collect_cons (name : List Char) (e : FName × Bytes) (rest : Dir) :
    collect name (e :: rest) =
      match iter name e.1 with
      | none => collect name rest
      | some i => (collect name rest).map ((i, e.1) :: ·) := by
  rw [collect, entryIter_eq]
  cases iter name e.1 <;> rfl

/-- The checkpoint files of a directory with their iterations. -/
def found (name : List Char) (d : Dir) : List (Nat × FName) :=
  d.filterMap fun e => (iter name e.1).map fun i => (i, e.1)

theorem collect_eq (name : List Char) (d : Dir) : collect name d = some (found name d) := by
  induction d with
  | nil => rfl
  | cons e d ih =>
    rw [collect_cons, ih]
    cases h : iter name e.1 with
    | none => simp [found, h]
    | some i => simp [found, h]

theorem insertDesc_perm (x : Nat × FName) (l : List (Nat × FName)) : (insertDesc x l).Perm (x :: l) := by
  induction l with
  | nil => exact List.Perm.refl _
  | cons y l ih =>
    unfold insertDesc
    split
    · exact List.Perm.refl _
    · exact (ih.cons y).trans (List.Perm.swap x y l)

theorem sortDesc_perm (l : List (Nat × FName)) : (sortDesc l).Perm l := by
  induction l with
  | nil => exact List.Perm.refl _
  | cons x l ih => exact (insertDesc_perm x _).trans (ih.cons x)

theorem insertDesc_sorted {x : Nat × FName} {l : List (Nat × FName)}
    (h : l.Pairwise fun a b => b.1 ≤ a.1) : (insertDesc x l).Pairwise fun a b => b.1 ≤ a.1 := by
  induction l with
  | nil => simp [insertDesc]
  | cons y l ih =>
    have h' := List.pairwise_cons.1 h
    unfold insertDesc
    split
    · rename_i hy
      refine List.pairwise_cons.2 ⟨fun a ha => ?_, h⟩
      rcases List.mem_cons.1 ha with h1 | h1
      · rw [h1]; exact hy
      · exact Nat.le_trans (h'.1 a h1) hy
    · rename_i hy
      refine List.pairwise_cons.2 ⟨fun a ha => ?_, ih h'.2⟩
      rcases List.mem_cons.1 ((insertDesc_perm x l).mem_iff.1 ha) with h1 | h1
      · rw [h1]; omega
      · exact h'.1 a h1

theorem sortDesc_sorted (l : List (Nat × FName)) : (sortDesc l).Pairwise fun a b => b.1 ≤ a.1 := by
  induction l with
  | nil => exact List.Pairwise.nil
  | cons x l ih => exact insertDesc_sorted ih

theorem insertDesc_head (x : Nat × FName) (l : List (Nat × FName)) :
    (insertDesc x l).head? = match l.head? with
      | none => some x
      | some y => if y.1 ≤ x.1 then some x else some y := by
  cases l with
  | nil => rfl
  | cons y l =>
    unfold insertDesc
    by_cases h : y.1 ≤ x.1
    · simp [h]
    · simp [h]

/-- The first of the sorted list is the first entry with the largest iteration. -/
theorem sortDesc_head {pre post : List (Nat × FName)} {x : Nat × FName}
    (h1 : ∀ y ∈ pre, y.1 < x.1) (h2 : ∀ y ∈ post, y.1 ≤ x.1) :
    (sortDesc (pre ++ x :: post)).head? = some x := by
  induction pre with
  | nil =>
    rw [List.nil_append, sortDesc, insertDesc_head]
    cases hp : (sortDesc post).head? with
    | none => rfl
    | some y =>
      have hy : y ∈ post := (sortDesc_perm post).mem_iff.1 (List.mem_of_head? hp)
      simp only [h2 y hy, if_true]
  | cons z pre ih =>
    rw [List.cons_append, sortDesc, insertDesc_head, ih fun y hy => h1 y (List.mem_cons_of_mem _ hy)]
    have := h1 z List.mem_cons_self
    simp only
    rw [if_neg (by omega)]

/-- Removing a list of files. -/
theorem foldl_remove (l : List (Nat × FName)) : ∀ d : Dir,
    l.foldl (fun d e => d.remove e.2) d = d.filter fun e => decide (e.1 ∉ l.map Prod.snd) := by
  induction l with
  | nil => intro d; exact (List.filter_eq_self.2 fun _ _ => rfl).symm
  | cons x l ih =>
    intro d
    rw [List.foldl_cons, ih, remove, List.filter_filter]
    congr 1
    funext e
    by_cases h1 : e.1 = x.2 <;> simp [h1]

/-- The files cleanup removes. -/
def dropped (name : List Char) (d : Dir) (keep : Nat) : List FName :=
  ((sortDesc (found name d)).drop keep).map Prod.snd

theorem cleanup_eq {m : Manager} (hk : m.keepAll = true) (d : Dir) {keep : Nat} (h0 : 0 < keep) :
    m.cleanup d keep = .ok (d.filter fun e => decide (e.1 ∉ dropped m.name d keep)) := by
  unfold cleanup
  rw [if_neg (by simp [hk]; omega), collect_eq]
  exact congrArg Res.ok (foldl_remove _ d)

theorem cleanup_noop {m : Manager} (d : Dir) {keep : Nat} (h : m.keepAll = false ∨ keep = 0) :
    m.cleanup d keep = .ok d := by
  unfold cleanup
  rw [if_pos (by rcases h with h | h <;> simp [h])]

theorem mem_found {name : List Char} {d : Dir} {i : Nat} {f : FName} :
    (i, f) ∈ found name d ↔ f ∈ names d ∧ iter name f = some i := by
  simp only [found, List.mem_filterMap, names, List.mem_map, Option.map_eq_some_iff, Prod.mk.injEq]
  constructor
  · rintro ⟨e, he, a, ha, rfl, rfl⟩; exact ⟨⟨e, he, rfl⟩, ha⟩
  · rintro ⟨⟨e, he, rfl⟩, hi⟩; exact ⟨e, he, i, hi, rfl, rfl⟩

theorem mem_dropped_found {name : List Char} {d : Dir} {keep : Nat} {f : FName}
    (h : f ∈ dropped name d keep) : ∃ i, (i, f) ∈ found name d := by
  obtain ⟨⟨i, g⟩, h1, rfl⟩ := List.mem_map.1 h
  exact ⟨i, (sortDesc_perm _).mem_iff.1 (List.mem_of_mem_drop h1)⟩

end Manager
end GS

namespace GS
namespace Manager
open Dir

theorem scan_le {name : List Char} (d : Dir) {it : Nat} {best : Option FName}
    (h : ∀ e ∈ d, ∀ j, iter name e.1 = some j → j ≤ it) : scan name d it best = .ok best := by
  rcases scan_spec name d it best with ⟨h1, -⟩ | ⟨pre, e, post, i, h1, -, h3, h4, -⟩
  · exact h1
  · have := h e (by rw [h1]; simp) i h3
    omega

theorem scan_max {name : List Char} {e : FName × Bytes} {post : Dir} {i : Nat}
    (hi : iter name e.1 = some i) (h2 : ∀ x ∈ post, ∀ j, iter name x.1 = some j → j ≤ i) :
    ∀ (pre : Dir) (it : Nat) (best : Option FName), it < i →
      (∀ x ∈ pre, ∀ j, iter name x.1 = some j → j < i) →
      scan name (pre ++ e :: post) it best = .ok (some e.1) := by
  intro pre
  induction pre with
  | nil =>
    intro it best hlt _
    rw [List.nil_append, scan_cons, hi]
    dsimp only
    rw [if_pos hlt, scan_le post h2]
  | cons x pre ih =>
    intro it best hlt h1
    have h1' : ∀ y ∈ pre, ∀ j, iter name y.1 = some j → j < i := fun y hy =>
      h1 y (List.mem_cons_of_mem _ hy)
    rw [List.cons_append, scan_cons]
    cases hx : iter name x.1 with
    | none => exact ih it best hlt h1'
    | some k =>
      dsimp only
      have := h1 x List.mem_cons_self k hx
      by_cases hk : it < k
      · rw [if_pos hk]; exact ih k _ this h1'
      · rw [if_neg hk]; exact ih it best hlt h1'

/-- The first file with the largest iteration is the latest one. -/
theorem findLatest_max {m : Manager} {pre post : Dir} {e : FName × Bytes} {i : Nat}
    (hi : iter m.name e.1 = some i) (h0 : 0 < i)
    (h1 : ∀ x ∈ pre, ∀ j, iter m.name x.1 = some j → j < i)
    (h2 : ∀ x ∈ post, ∀ j, iter m.name x.1 = some j → j ≤ i) :
    m.findLatest (pre ++ e :: post) = .ok e.1 := by
  unfold findLatest
  rw [scan_max hi h2 pre 0 none h0 h1]

theorem lookup_filter (d : Dir) (p : FName → Bool) (f : FName) :
    lookup (d.filter fun e => p e.1) f = if p f = true then lookup d f else none := by
  induction d with
  | nil => simp [lookup_nil]
  | cons e d ih =>
    rw [List.filter_cons, lookup_cons]
    by_cases he : e.1 = f
    · subst he
      by_cases hp : p e.1 = true
      · simp [hp, lookup_cons]
      · simp only [hp, if_false, Bool.false_eq_true]
        rw [ih]; simp [hp]
    · by_cases hp : p e.1 = true
      · simp [hp, lookup_cons, he, ih]
      · simp only [hp, if_false, Bool.false_eq_true]
        rw [ih]; simp [he]

theorem found_snd_nodup {name : List Char} {d : Dir} (hd : (names d).Nodup) :
    ((found name d).map Prod.snd).Nodup := by
  have h : ((found name d).map Prod.snd).Sublist (names d) := by
    clear hd
    induction d with
    | nil => exact List.Sublist.slnil
    | cons e d ih =>
      cases he : iter name e.1 with
      | none => simpa [found, he, names] using ih.trans (List.sublist_cons_self e.1 _)
      | some i => simpa [found, he, names] using ih
  exact h.nodup hd

theorem found_filter (name : List Char) (d : Dir) (p : FName → Bool) :
    found name (d.filter fun e => p e.1) = (found name d).filter fun x => p x.2 := by
  induction d with
  | nil => rfl
  | cons e d ih =>
    rw [List.filter_cons]
    by_cases hp : p e.1 = true
    · rw [if_pos hp]
      cases he : iter name e.1 with
      | none =>
        simp only [found, List.filterMap_cons, he, Option.map_none] at ih ⊢
        exact ih
      | some i =>
        simp only [found, List.filterMap_cons, he, Option.map_some, List.filter_cons, hp, if_true] at ih ⊢
        rw [ih]
    · rw [if_neg hp, ih]
      cases he : iter name e.1 with
      | none => simp [found, he]
      | some i => simp [found, he, hp]

/-- What remains are the first `keep` of the sorted checkpoints. -/
theorem kept_iff {name : List Char} {d : Dir} (hd : (names d).Nodup) {keep : Nat} {x : Nat × FName}
    (hx : x ∈ sortDesc (found name d)) :
    x.2 ∉ dropped name d keep ↔ x ∈ (sortDesc (found name d)).take keep := by
  have hn : ((sortDesc (found name d)).map Prod.snd).Nodup :=
    ((sortDesc_perm _).map _).nodup_iff.2 (found_snd_nodup hd)
  have hsplit := List.take_append_drop keep (sortDesc (found name d))
  rw [← hsplit, List.map_append, List.nodup_append] at hn
  constructor
  · intro h
    rw [← hsplit] at hx
    rcases List.mem_append.1 hx with h1 | h1
    · exact h1
    · exact absurd (List.mem_map_of_mem h1) h
  · intro h hc
    exact hn.2.2 _ (List.mem_map_of_mem h) _ hc rfl

theorem found_cleaned_length {name : List Char} {d : Dir} (hd : (names d).Nodup) (keep : Nat) :
    (found name (d.filter fun e => decide (e.1 ∉ dropped name d keep))).length =
      min keep (found name d).length := by
  have h0 := found_filter name d (fun f => decide (f ∉ dropped name d keep))
  rw [h0]
  have hp := sortDesc_perm (found name d)
  rw [← (hp.filter _).length_eq, ← List.take_append_drop keep (sortDesc (found name d)),
    List.filter_append, List.length_append]
  have h1 : ((sortDesc (found name d)).take keep).filter
      (fun x => decide (x.2 ∉ dropped name d keep)) = (sortDesc (found name d)).take keep := by
    refine List.filter_eq_self.2 fun x hx => ?_
    rw [decide_eq_true_eq]
    exact (kept_iff hd (List.mem_of_mem_take hx)).2 hx
  have h2 : ((sortDesc (found name d)).drop keep).filter
      (fun x => decide (x.2 ∉ dropped name d keep)) = [] := by
    refine List.filter_eq_nil_iff.2 fun x hx => ?_
    rw [decide_eq_true_eq]
    exact fun h => h (List.mem_map_of_mem hx)
  have h3 := hp.length_eq
  rw [h1, h2, List.length_nil, Nat.add_zero, List.length_take, h3]

theorem found_append (name : List Char) (a b : Dir) : found name (a ++ b) = found name a ++ found name b := by
  simp [found]

theorem found_cons_some {name : List Char} {e : FName × Bytes} {i : Nat} (h : iter name e.1 = some i)
    (d : Dir) : found name (e :: d) = (i, e.1) :: found name d := by
  simp [found, h]

/-- Cleanup does not change which file is the latest. -/
theorem findLatest_cleaned {m : Manager} {d : Dir} (hd : (names d).Nodup) {keep : Nat} (h0 : 0 < keep) :
    m.findLatest (d.filter fun e => decide (e.1 ∉ dropped m.name d keep)) = m.findLatest d := by
  rcases findLatest_spec m d with ⟨h1, h2⟩ | ⟨pre, e, post, i, h1, h2, h3, h4, h5, h6⟩
  · rw [h1]
    refine findLatest_none fun g hg j hj => ?_
    obtain ⟨e, he, rfl⟩ := List.mem_map.1 hg
    exact h2 e (List.mem_filter.1 he).1 j hj
  · rw [h2]
    have hhead : (sortDesc (found m.name d)).head? = some (i, e.1) := by
      rw [h1, found_append, found_cons_some h3]
      refine sortDesc_head (fun y hy => ?_) (fun y hy => ?_)
      · obtain ⟨g1, g2⟩ := mem_found.1 (show (y.1, y.2) ∈ found m.name pre from hy)
        obtain ⟨x, hx, hxy⟩ := List.mem_map.1 g1
        exact h5 x hx y.1 (by rw [hxy]; exact g2)
      · obtain ⟨g1, g2⟩ := mem_found.1 (show (y.1, y.2) ∈ found m.name post from hy)
        obtain ⟨x, hx, hxy⟩ := List.mem_map.1 g1
        exact h6 x hx y.1 (by rw [hxy]; exact g2)
    have htake : (i, e.1) ∈ (sortDesc (found m.name d)).take keep := by
      cases hs : sortDesc (found m.name d) with
      | nil => rw [hs] at hhead; cases hhead
      | cons y l =>
        rw [hs] at hhead
        obtain ⟨k, rfl⟩ : ∃ k, keep = k + 1 := ⟨keep - 1, by omega⟩
        simp only [List.head?_cons, Option.some.injEq] at hhead
        simp [hhead]
    have hkeep : e.1 ∉ dropped m.name d keep := (kept_iff hd (List.mem_of_mem_take htake)).2 htake
    conv => lhs; rw [h1, List.filter_append, List.filter_cons]
    rw [← h1, if_pos (by simpa using hkeep)]
    exact findLatest_max h3 h4 (fun x hx => h5 x (List.mem_filter.1 hx).1)
      (fun x hx => h6 x (List.mem_filter.1 hx).1)

end Manager
end GS
