/- What the directory holds after several lifetimes of a program, file by file. -/
import Verif.Model.Torn
import Verif.Props.Restart

namespace GS
open Manager Dir GS.Props
variable {n : Nat}

/-- The numbers of the checkpoints of a run are those in the checkpoints. -/
theorem life_number {m : Manager} {o : Opt n} {d : Dir} {h : List (List (Event n))} (hr : Restarts m o)
    (hi : LifeInv m o d h) {env : Env n} {tr : List (Event n)}
    (htr : tr <+: (run env o ((m.lastIn h.flatten).map fun s => .ok s.2)).final.trace) :
    ∀ s ∈ written tr, s.2.currentIteration = s.1 := by
  intro s hs
  obtain ⟨o1, res, hst, hne, -⟩ := life_start hr hi env
  unfold written at hs
  rw [List.mem_filterMap] at hs
  obtain ⟨e, he, hs⟩ := hs
  cases e with
  | saved it c =>
    cases hs
    obtain ⟨a, b, hab⟩ := List.append_of_mem he
    obtain ⟨rest, hrest⟩ := htr
    rw [hab] at hrest
    exact (C49_contents hst hne (pre := a) (post := b ++ rest) (it := it) (c := c) (by
      rw [← hrest]; simp)).1
  | _ => cases hs

theorem pairwise_last {l : List (Nat × Ckpt n)} (h : l.Pairwise fun x y => x.1 ≤ y.1) {s : Nat × Ckpt n}
    (hs : l.getLast? = some s) : ∀ x ∈ l, x.1 ≤ s.1 := by
  obtain ⟨pre, rfl⟩ := List.getLast?_eq_some_iff.1 hs
  rw [List.pairwise_append] at h
  intro x hx
  rcases List.mem_append.1 hx with hx | hx
  · exact h.2.2 x hx s (List.mem_singleton.2 rfl)
  · rw [List.mem_singleton.1 hx]

/-- The files after several lifetimes are those of all the writes. -/
structure Files (m : Manager) (d0 d : Dir) (w : List (Nat × Ckpt n)) : Prop where
  nodup : (names d).Nodup
  lookup : ∀ g, d.lookup g = (m.saveAll d0 (w.map fun s => (s.1, s.2.toWire))).lookup g
  values : ∀ s ∈ w, CkptOk m.feat s.2.toWire

theorem Files.names {m : Manager} {d0 d : Dir} {w : List (Nat × Ckpt n)} (hf : Files m d0 d w) (g : FName) :
    g ∈ Dir.names d ↔ (∃ s ∈ w, g = .utf8 (Name.file m.keepAll m.name s.1)) ∨ g ∈ Dir.names d0 := by
  rw [← lookup_isSome, hf.lookup, lookup_isSome, mem_names_saveAll]
  constructor
  · rintro (⟨s, hs, h⟩ | h)
    · obtain ⟨x, hx, rfl⟩ := List.mem_map.1 hs
      exact .inl ⟨x, hx, h⟩
    · exact .inr h
  · rintro (⟨s, hs, h⟩ | h)
    · exact .inl ⟨_, List.mem_map_of_mem hs, h⟩
    · exact .inr h

/-- A file holds what was last written to it. -/
theorem Files.last {m : Manager} {d0 d : Dir} {w : List (Nat × Ckpt n)} (hf : Files m d0 d w)
    (hk : m.keepAll = true) {pre post : List (Nat × Ckpt n)} {s : Nat × Ckpt n} (hw : w = pre ++ s :: post)
    (hs : ∀ x ∈ post, x.1 ≠ s.1) :
    d.lookup (.utf8 (Name.file true m.name s.1)) = some (Enc.ckpt m.feat s.2.toWire) := by
  rw [hf.lookup, hw, List.map_append, List.map_cons]
  have := lookup_saveAll (m := m) (d := d0) (pre := pre.map fun s => (s.1, s.2.toWire))
    (post := post.map fun s => (s.1, s.2.toWire)) (i := s.1) (c := s.2.toWire) (fun x hx hc => by
      obtain ⟨y, hy, rfl⟩ := List.mem_map.1 hx
      rw [hk] at hc
      exact hs y hy (Name.file_inj hc))
  rwa [hk] at this

/-- One more lifetime. -/
theorem Files.life {m : Manager} {o : Opt n} {d0 d d' : Dir} {w : List (Nat × Ckpt n)} {env : Env n}
    {tr : List (Event n)} (hf : Files m d0 d w) (hl : Life m o d env tr d') :
    Files m d0 d' (w ++ written tr) := by
  obtain ⟨-, -, hval, hdir⟩ := hl
  rw [after_eq] at hdir
  have hnd0 : (Dir.names (m.saveAll d ((written tr).map fun s => (s.1, s.2.toWire)))).Nodup :=
    nodup_saveAll _ hf.nodup
  refine ⟨(hdir.map _).nodup_iff.2 hnd0, fun g => ?_, fun s hs => ?_⟩
  · rw [lookup_perm hdir hnd0, List.map_append, saveAll_append]
    generalize (written tr).map (fun s => (s.1, s.2.toWire)) = l
    have : ∀ (l : List (Nat × WCkpt)) (a b : Dir), (∀ g, a.lookup g = b.lookup g) →
        ∀ g, (m.saveAll a l).lookup g = (m.saveAll b l).lookup g := by
      intro l
      induction l with
      | nil => exact fun a b h => h
      | cons x l ih =>
        intro a b h
        refine ih _ _ fun g => ?_
        show Dir.lookup (Dir.write a _ _) g = Dir.lookup (Dir.write b _ _) g
        rw [lookup_write, lookup_write, h]
    exact this l _ _ hf.lookup g
  · rcases List.mem_append.1 hs with h | h
    · exact hf.values s h
    · exact hval s h

theorem Lives.files {m : Manager} {o : Opt n} {d0 d : Dir} (hn : (Dir.names d0).Nodup)
    {h : List (Env n × List (Event n))} (hl : Lives m o d0 h d) : Files m d0 d (allWritten h) := by
  induction hl with
  | start => exact ⟨hn, fun _ => rfl, fun s hs => by cases hs⟩
  | next _ hlife ih =>
    have := ih.life hlife
    unfold allWritten at this ⊢
    rw [List.map_append, List.map_singleton, flatten_snoc, written_append]
    exact this

/-- The numbers of the checkpoints that count rise, in sequential lifetimes; and all are `usize`. -/
theorem Lives.rising {m : Manager} {o : Opt n} {d0 d : Dir} (hr : Restarts m o) (hk : m.keepAll = true)
    (hseq : o.seqConfigured) (hc : GS.Props.Clean m d0) {h : List (Env n × List (Event n))}
    (hp : ∀ x ∈ h, Polite x.1) (hl : Lives m o d0 h d) :
    ((allWritten h).filter fun s => m.counts s.1).Pairwise (fun x y => x.1 ≤ y.1) ∧
      ∀ s ∈ allWritten h, s.1 < 2 ^ 64 := by
  induction hl with
  | start => exact ⟨.nil, fun s hs => by cases hs⟩
  | @next h d env tr d' hls hlife ih =>
    have hp' : ∀ x ∈ h, Polite x.1 := fun x hx => hp x (by simp [hx])
    obtain ⟨ih1, ih2⟩ := ih hp'
    have hi := LifeInv.all hr hc.nodup hc.single hc.numbered (fun _ => ⟨hseq, hp'⟩) hls
    obtain ⟨⟨loaded, hfind, htr⟩, -, hval, -⟩ := hlife
    rw [hi.found] at hfind
    cases hfind
    obtain ⟨r1, r2⟩ := life_rising hr hi (hp (env, tr) (by simp)) hseq htr
    have hw : allWritten (h ++ [(env, tr)]) = allWritten h ++ written tr := by
      unfold allWritten
      rw [List.map_append, List.map_singleton, flatten_snoc, written_append]
    rw [hw]
    constructor
    · rw [List.filter_append, List.pairwise_append]
      refine ⟨ih1, r2.filter _, fun x hx y hy => ?_⟩
      cases hlast : m.lastIn (h.map Prod.snd).flatten with
      | none =>
        have hnil : (allWritten h).filter (fun s => m.counts s.1) = [] := List.getLast?_eq_none_iff.1 hlast
        rw [hnil] at hx
        cases hx
      | some s =>
        exact Nat.le_trans (pairwise_last ih1 hlast x hx) (r1 s hlast y (List.mem_filter.1 hy).1)
    · intro s hs
      rcases List.mem_append.1 hs with h | h
      · exact ih2 s h
      · rw [← life_number hr hi htr s h]
        exact (hval s h).iter

/-- The part of a lifetime before the interrupted write. -/
theorem Torn.life {m : Manager} {o : Opt n} {d d' : Dir} {env : Env n} {tr : List (Event n)} {it k : Nat}
    {c : Ckpt n} (ht : Torn m o d env tr it c k d') : Life m o d env tr (m.after d tr) := by
  obtain ⟨⟨loaded, hf, hp⟩, h1, h2, -, -⟩ := ht
  refine ⟨⟨loaded, hf, (List.prefix_append _ _).trans hp⟩, h1, fun s hs => h2 s ?_, List.Perm.refl _⟩
  rw [written_append]
  exact List.mem_append_left _ hs

theorem Torn.value {m : Manager} {o : Opt n} {d d' : Dir} {env : Env n} {tr : List (Event n)} {it k : Nat}
    {c : Ckpt n} (ht : Torn m o d env tr it c k d') : CkptOk m.feat c.toWire :=
  ht.values (it, c) (by rw [written_append]; exact List.mem_append_right _ (by simp [written]))

/-- The checkpoint being written is not older than those before it, in sequential lifetimes. -/
theorem Torn.rising {m : Manager} {o : Opt n} {d0 d d' : Dir} (hr : Restarts m o) (hk : m.keepAll = true)
    (hseq : o.seqConfigured) (hc : GS.Props.Clean m d0) {h : List (Env n × List (Event n))}
    (hp : ∀ x ∈ h, Polite x.1) (hl : Lives m o d0 h d) {env : Env n} (hpe : Polite env)
    {tr : List (Event n)} {it k : Nat} {c : Ckpt n} (ht : Torn m o d env tr it c k d') :
    (((allWritten h ++ written tr) ++ [(it, c)]).filter fun s => m.counts s.1).Pairwise
        (fun x y => x.1 ≤ y.1) ∧ ∀ s ∈ (allWritten h ++ written tr) ++ [(it, c)], s.1 < 2 ^ 64 := by
  have h2 : Lives m o d0 (h ++ [(env, tr ++ [.saved it c])]) (m.after d (tr ++ [.saved it c])) := by
    refine .next hl ⟨ht.run, fun i c' hm => ?_, ht.values, List.Perm.refl _⟩
    rcases List.mem_append.1 hm with hm | hm
    · exact ht.noFailure i c' hm
    · cases List.mem_singleton.1 hm
  have := Lives.rising hr hk hseq hc (fun x hx => ?_) h2
  · have hw : allWritten (h ++ [(env, tr ++ [.saved it c])]) = (allWritten h ++ written tr) ++ [(it, c)] := by
      unfold allWritten
      rw [List.map_append, List.map_singleton, flatten_snoc, written_append, written_append,
        List.append_assoc]
      simp [written]
    rw [hw] at this
    exact this
  · rcases List.mem_append.1 hx with h | h
    · exact hp x h
    · rw [List.mem_singleton.1 h]; exact hpe

end GS
