/- Properties C41-C45: checkpoint files, the latest checkpoint, cleanup, crashes, interference. -/
import Verif.Lemmas.Manager
import Verif.Props.Codec

namespace GS.Props
open GS F64 Witness Manager Dir

/-- The text is the number `i`, below 2^64: decimal digits, perhaps with a plus sign in front. -/
def Number (s : List Char) (i : Nat) : Prop :=
  ∃ ds, ds ≠ [] ∧ (s = ds ∨ s = '+' :: ds) ∧ (∀ c ∈ ds, 48 ≤ c.toNat ∧ c.toNat ≤ 57) ∧
    ds.foldl (fun a c => a * 10 + (c.toNat - 48)) 0 = i ∧ i < 2 ^ 64

theorem parse_number {s : List Char} {i : Nat} : Name.parse s = some i ↔ Number s i := Name.parse_iff s i

/-- The file is `<name>_<number>.bin` with the number `i`. -/
def Ours (name : List Char) (f : FName) (i : Nat) : Prop :=
  ∃ s, f = .utf8 (name ++ ['_'] ++ s ++ ['.', 'b', 'i', 'n']) ∧ Number s i

theorem ours_iff {name : List Char} {f : FName} {i : Nat} : Ours name f i ↔ iter name f = some i := by
  rw [iter_some]
  exact exists_congr fun s => and_congr_right fun _ => parse_number.symm

/-! ### C41 -/

/-- C41: distinct iterations are written to distinct files. -/
theorem C41_distinct_files (name : List Char) (i j : Nat)
    (h : Name.file true name i = Name.file true name j) : i = j := Name.file_inj h

/-- C41: the iteration is recovered from the file name. -/
theorem C41_iteration_recovered (name : List Char) (i : Nat) (hi : i < 2 ^ 64) :
    entryIter name (.utf8 (Name.file true name i)) = some (some i) := Name.iteration_file name hi

example : entryIter "run".toList (.utf8 (Name.file true "run".toList 1234567)) = some (some 1234567) :=
  C41_iteration_recovered _ _ (by decide)

/-- C41: what the scan accepts is exactly `<name>_<number>.bin`. -/
theorem C41_accepted (name : List Char) (f : FName) (i : Nat) :
    entryIter name f = some (some i) ↔ Ours name f i := by
  rw [entryIter_eq, ours_iff]
  simp

/-- C41: no directory content makes scanning panic. -/
theorem C41_never_panics (m : Manager) (d : Dir) (keep : Nat) :
    m.findLatest d ≠ .panic ∧ m.loadLatest d ≠ .panic ∧ m.exists? d ≠ .panic ∧
      m.cleanup d keep ≠ .panic := by
  have hf : m.findLatest d ≠ .panic := by
    rcases findLatest_spec m d with ⟨h, -⟩ | ⟨_, _, _, _, -, h, -⟩ <;> rw [h] <;> exact fun h => by cases h
  have hp : ∀ f, m.loadPath d f ≠ .panic := fun f => by
    unfold loadPath
    cases d.lookup f with
    | none => exact fun h => by cases h
    | some b => dsimp only; cases decodeFile m.feat b <;> exact fun h => by cases h
  refine ⟨hf, ?_, ?_, ?_⟩
  · unfold loadLatest
    cases hk : m.keepAll
    · exact hp _
    · simp only [if_true]
      cases h : m.findLatest d with
      | ok f => exact hp f
      | err e => exact fun h => by cases h
      | panic => exact absurd h hf
  · unfold exists?
    cases hk : m.keepAll
    · exact fun h => by cases h
    · simp only [if_true]
      cases h : m.findLatest d with
      | ok f => exact fun h => by cases h
      | err e => exact fun h => by cases h
      | panic => exact absurd h hf
  · unfold cleanup
    split
    · exact fun h => by cases h
    · rw [collect_eq]; exact fun h => by cases h

/-! ### C42 -/

theorem loadPath_of_lookup {m : Manager} {d : Dir} {f : FName} {c : WCkpt} (hc : CkptOk m.feat c)
    (h : d.lookup f = some (Enc.ckpt m.feat c)) : m.loadPath d f = .ok c := by
  unfold loadPath
  rw [h]
  dsimp only
  rw [C39_load _ _ hc]

theorem names_perm {d d' : Dir} (h : d'.Perm d) (g : FName) : g ∈ names d' ↔ g ∈ names d :=
  (h.map _).mem_iff

/-- Part of C42, `keep_all`: after any sequence of saves into a directory without files of this name,
listed in any order, the checkpoint of the largest iteration is loaded and reported to exist, provided
that iteration is not 0.  The missing case is `C42_iteration_zero_violated`. -/
theorem C42_keep_all_partial (m : Manager) (hk : m.keepAll = true) (d0 d : Dir)
    (hn : (names d0).Nodup) (h0 : ∀ f ∈ names d0, ∀ i, ¬ Ours m.name f i)
    (pre post : List (Nat × WCkpt)) (i : Nat) (c : WCkpt)
    (hs : ∀ s ∈ pre ++ (i, c) :: post, s.1 < 2 ^ 64) (hc : CkptOk m.feat c)
    (hd : d.Perm (m.saveAll d0 (pre ++ (i, c) :: post)))
    (hi : 0 < i) (hmax : ∀ s ∈ pre ++ (i, c) :: post, s.1 ≤ i) (hlast : ∀ s ∈ post, s.1 ≠ i) :
    m.loadLatest d = .ok c ∧ m.exists? d = .ok true := by
  have hi64 : i < 2 ^ 64 := hs (i, c) (by simp)
  have hfind : m.findLatest d = .ok (.utf8 (Name.file true m.name i)) := by
    refine findLatest_eq ?_ (iter_file _ hi64) hi ?_ ?_
    · rw [names_perm hd, mem_names_saveAll, hk]
      exact .inl ⟨(i, c), by simp, rfl⟩
    · intro g hg j hj
      rw [names_perm hd, mem_names_saveAll, hk] at hg
      rcases hg with ⟨s, hs', rfl⟩ | hg
      · rw [iter_file _ (hs s hs')] at hj
        cases hj
        exact hmax s hs'
      · exact absurd (ours_iff.2 hj) (h0 g hg j)
    · intro g hg hj
      rw [names_perm hd, mem_names_saveAll, hk] at hg
      rcases hg with ⟨s, hs', rfl⟩ | hg
      · rw [iter_file _ (hs s hs')] at hj
        rw [Option.some.inj hj]
      · exact absurd (ours_iff.2 hj) (h0 g hg i)
  have hl : d.lookup (.utf8 (Name.file true m.name i)) = some (Enc.ckpt m.feat c) := by
    rw [lookup_perm hd (nodup_saveAll _ hn)]
    have := lookup_saveAll (m := m) (d := d0) (pre := pre) (post := post) (i := i) (c := c)
      (fun s hs' hc => hlast s hs' (by rw [hk] at hc; exact Name.file_inj hc))
    rwa [hk] at this
  constructor
  · rw [loadLatest, if_pos hk, hfind]
    exact loadPath_of_lookup hc hl
  · rw [exists?, if_pos hk, hfind]

/-- A full-feature manager. -/
def mgr (name : String) (keepAll : Bool) : Manager := ⟨⟨true, true, false⟩, name.toList, keepAll⟩

example : (mgr "run" true).loadLatest
    ((mgr "run" true).saveAll [(.utf8 "notes.txt".toList, [1]), (.other 0, [])]
      ([(1, sampleCkpt)] ++ (12, sampleCkpt) :: [(3, sampleCkpt)])) = .ok sampleCkpt :=
  (C42_keep_all_partial _ rfl _ _ (by decide)
    (by
      intro f hf i ho
      rw [ours_iff] at ho
      rcases List.mem_cons.1 hf with h | h
      · rw [h] at ho; revert ho
        rw [show iter (mgr "run" true).name (.utf8 "notes.txt".toList) = none from by decide]
        exact fun h => by cases h
      · rw [List.mem_singleton.1 h] at ho; cases ho)
    _ _ _ _ (by decide) (sampleCkpt_ok _ _) (List.Perm.refl _) (by decide) (by decide) (by decide)).1

/-- C42, `keep_all`: a directory in which only iteration 0 has been saved is treated as having no
checkpoint at all; so C42 is false. -/
theorem C42_iteration_zero_violated (m : Manager) (hk : m.keepAll = true) (d0 d : Dir)
    (h0 : ∀ f ∈ names d0, ∀ i, ¬ Ours m.name f i) (saves : List (Nat × WCkpt))
    (hs : ∀ s ∈ saves, s.1 = 0) (hd : d.Perm (m.saveAll d0 saves)) :
    m.loadLatest d = .err .notFound ∧ m.exists? d = .ok false := by
  have hfind : m.findLatest d = .err .notFound := by
    refine findLatest_none fun g hg j hj => ?_
    rw [names_perm hd, mem_names_saveAll, hk] at hg
    rcases hg with ⟨s, hs', rfl⟩ | hg
    · rw [iter_file _ (by rw [hs s hs']; decide)] at hj
      cases hj
      exact hs s hs'
    · exact absurd (ours_iff.2 hj) (h0 g hg j)
  constructor
  · rw [loadLatest, if_pos hk, hfind]
  · rw [exists?, if_pos hk, hfind]

example : (mgr "run" true).exists? ((mgr "run" true).saveAll [] [(0, sampleCkpt)]) = .ok false :=
  (C42_iteration_zero_violated _ rfl [] _ (fun _ h => by cases h) [(0, sampleCkpt)]
    (by decide) (List.Perm.refl _)).2

/-- C42, `keep_all`: before the first save no checkpoint exists. -/
theorem C42_keep_all_none (m : Manager) (hk : m.keepAll = true) (d : Dir)
    (h0 : ∀ f ∈ names d, ∀ i, ¬ Ours m.name f i) :
    m.loadLatest d = .err .notFound ∧ m.exists? d = .ok false :=
  C42_iteration_zero_violated m hk d d h0 [] (by simp) (List.Perm.refl _)

example : (mgr "run" true).exists? [(.utf8 "run_1.txt".toList, []), (.other 3, [1])] = .ok false :=
  by decide +kernel

/-- C42 without `keep_all`: the last saved checkpoint is loaded. -/
theorem C42_single (m : Manager) (hk : m.keepAll = false) (d0 d : Dir) (hn : (names d0).Nodup)
    (pre : List (Nat × WCkpt)) (i : Nat) (c : WCkpt) (hc : CkptOk m.feat c)
    (hd : d.Perm (m.saveAll d0 (pre ++ [(i, c)]))) :
    m.loadLatest d = .ok c ∧ m.exists? d = .ok true := by
  have hl : d.lookup (.utf8 (Name.file false m.name 0)) = some (Enc.ckpt m.feat c) := by
    rw [lookup_perm hd (nodup_saveAll _ hn)]
    have := lookup_saveAll (m := m) (d := d0) (pre := pre) (post := []) (i := i) (c := c)
      (fun s hs' => by cases hs')
    rw [hk] at this
    exact this
  constructor
  · rw [loadLatest, if_neg (by rw [hk]; decide)]
    exact loadPath_of_lookup hc hl
  · rw [exists?, if_neg (by rw [hk]; decide), hl]; rfl

/-- C42 without `keep_all`: before the first save no checkpoint exists. -/
theorem C42_single_none (m : Manager) (hk : m.keepAll = false) (d : Dir)
    (h0 : FName.utf8 (m.name ++ ['.', 'b', 'i', 'n']) ∉ names d) :
    m.loadLatest d = .err .notFound ∧ m.exists? d = .ok false := by
  have hl : d.lookup (.utf8 (Name.file false m.name 0)) = none := lookup_eq_none.2 h0
  constructor
  · rw [loadLatest, if_neg (by rw [hk]; decide), loadPath, hl]
  · rw [exists?, if_neg (by rw [hk]; decide), hl]; rfl

example : (mgr "run" false).loadLatest
    ((mgr "run" false).saveAll [] ([(7, sampleSeq)] ++ [(0, sampleCkpt)])) = .ok sampleCkpt :=
  (C42_single _ rfl [] _ (by decide) _ 0 _ (sampleCkpt_ok _ _) (List.Perm.refl _)).1

/-! ### C43 -/

open Classical in
/-- Number of checkpoint files of a name in a directory. -/
noncomputable def ckptCount (name : List Char) (d : Dir) : Nat :=
  d.countP fun e => decide (∃ i, Ours name e.1 i)

theorem ckptCount_eq (name : List Char) (d : Dir) : ckptCount name d = (found name d).length := by
  induction d with
  | nil => rfl
  | cons e d ih =>
    unfold ckptCount at ih ⊢
    rw [List.countP_cons, ih]
    cases h : iter name e.1 with
    | none =>
      have : ¬ ∃ i, Ours name e.1 i := fun ⟨i, hi⟩ => by rw [ours_iff, h] at hi; cases hi
      simp [found, h, this]
    | some i =>
      have : ∃ i, Ours name e.1 i := ⟨i, ours_iff.2 h⟩
      simp [found, h, this]

/-- C43: with `keep_all` and `keep > 0`, cleanup succeeds; it leaves every other file as it is, keeps
`keep` checkpoints (all, if there are fewer), removes only checkpoints that are not newer than any kept
one, changes nothing when repeated, and the latest checkpoint stays the same. -/
theorem C43_cleanup (m : Manager) (hk : m.keepAll = true) (d : Dir) (hn : (names d).Nodup) (keep : Nat)
    (h0 : 0 < keep) : ∃ d', m.cleanup d keep = .ok d' ∧
      d'.Sublist d ∧
      (∀ e ∈ d, (∀ i, ¬ Ours m.name e.1 i) → e ∈ d') ∧
      ckptCount m.name d' = min keep (ckptCount m.name d) ∧
      (∀ e ∈ d, e ∉ d' → ∀ e' ∈ d', ∀ i j, Ours m.name e.1 i → Ours m.name e'.1 j → i ≤ j) ∧
      m.cleanup d' keep = .ok d' ∧
      m.loadLatest d' = m.loadLatest d ∧ m.exists? d' = m.exists? d := by
  have hfind := findLatest_cleaned (m := m) hn h0
  have hcount := found_cleaned_length (name := m.name) hn keep
  refine ⟨_, cleanup_eq hk d h0, List.filter_sublist, ?_, ?_, ?_, ?_, ?_, ?_⟩
  · intro e he hno
    refine List.mem_filter.2 ⟨he, ?_⟩
    rw [decide_eq_true_eq]
    intro hd
    obtain ⟨i, hi⟩ := mem_dropped_found hd
    exact hno i (ours_iff.2 (mem_found.1 hi).2)
  · rw [ckptCount_eq, ckptCount_eq, hcount]
  · intro e he hne e' he' i j hi hj
    rw [ours_iff] at hi hj
    have hdrop : e.1 ∈ dropped m.name d keep := by
      by_contra hc
      exact hne (List.mem_filter.2 ⟨he, by simpa using hc⟩)
    obtain ⟨he'd, hkeep⟩ := List.mem_filter.1 he'
    rw [decide_eq_true_eq] at hkeep
    obtain ⟨⟨i', f⟩, h1, h2⟩ := List.mem_map.1 hdrop
    have h2' : f = e.1 := h2
    subst h2'
    have hi' : iter m.name e.1 = some i' :=
      (mem_found.1 ((sortDesc_perm _).mem_iff.1 (List.mem_of_mem_drop h1))).2
    have : i' = i := Option.some.inj (hi'.symm.trans hi)
    subst this
    have hmem : (j, e'.1) ∈ sortDesc (found m.name d) :=
      (sortDesc_perm _).mem_iff.2 (mem_found.2 ⟨List.mem_map_of_mem he'd, hj⟩)
    have htake := (kept_iff hn hmem).1 hkeep
    have hsort := sortDesc_sorted (found m.name d)
    rw [← List.take_append_drop keep (sortDesc (found m.name d)), List.pairwise_append] at hsort
    exact hsort.2.2 _ htake _ h1
  · rw [cleanup_eq hk _ h0]
    refine congrArg Res.ok (List.filter_eq_self.2 fun e _ => ?_)
    rw [decide_eq_true_eq]
    have : dropped m.name (d.filter fun e => decide (e.1 ∉ dropped m.name d keep)) keep = [] := by
      unfold dropped
      rw [List.map_eq_nil_iff]
      refine List.drop_eq_nil_iff.2 ?_
      rw [(sortDesc_perm _).length_eq]
      have : (found m.name (d.filter fun e => decide (e.1 ∉ dropped m.name d keep))).length ≤ keep := by
        rw [hcount]; omega
      exact this
    rw [this]
    exact fun h => by cases h
  · unfold loadLatest
    rw [if_pos hk, if_pos hk, hfind]
    rcases findLatest_spec m d with ⟨h1, -⟩ | ⟨pre, e, post, i, h1, h2, -⟩
    · rw [h1]
    · rw [h2]
      dsimp only
      have hmem : e.1 ∈ names (d.filter fun e => decide (e.1 ∉ dropped m.name d keep)) := by
        rcases findLatest_spec m (d.filter fun e => decide (e.1 ∉ dropped m.name d keep)) with
          ⟨g1, -⟩ | ⟨pre', e', post', i', g1, g2, -⟩
        · rw [hfind, h2] at g1; cases g1
        · rw [hfind, h2] at g2
          rw [Res.ok.inj g2]
          exact List.mem_map_of_mem (by rw [g1]; simp)
      unfold loadPath
      have h3 := lookup_filter d (fun f => decide (f ∉ dropped m.name d keep)) e.1
      obtain ⟨x, hx, hxe⟩ := List.mem_map.1 hmem
      have h4 := (List.mem_filter.1 hx).2
      rw [hxe] at h4
      rw [h3, if_pos h4]
  · unfold exists?
    rw [if_pos hk, if_pos hk, hfind]

/-- C43: otherwise cleanup does nothing. -/
theorem C43_noop (m : Manager) (d : Dir) (keep : Nat) (h : m.keepAll = false ∨ keep = 0) :
    m.cleanup d keep = .ok d := cleanup_noop d h

/-- Three checkpoints and another file. -/
def sampleDir : Dir :=
  [(.utf8 "run_000002.bin".toList, [2]), (.utf8 "notes.txt".toList, [0]), (.utf8 "run_000010.bin".toList, [10]),
    (.utf8 "run_000003.bin".toList, [3])]

example : (names sampleDir).Nodup ∧ (mgr "run" true).cleanup sampleDir 2 =
    .ok [(.utf8 "notes.txt".toList, [0]), (.utf8 "run_000010.bin".toList, [10]),
      (.utf8 "run_000003.bin".toList, [3])] := by decide +kernel

/-! ### C44 -/

theorem loadPath_crashed {m : Manager} {d : Dir} {c : WCkpt} {i k : Nat} (hc : CkptOk m.feat c)
    (hk : k < (Enc.ckpt m.feat c).length) {d' : Dir} (hn : (names d).Nodup)
    (hd : d'.Perm (m.crashSave d c i k)) :
    m.loadPath d' (.utf8 (Name.file m.keepAll m.name i)) = .err .serialization := by
  unfold loadPath
  rw [lookup_perm hd (nodup_write hn _ _), crashSave, lookup_write, if_pos rfl]
  dsimp only
  rw [C40_truncated _ _ hc _ hk]

/-- Part of C44: a crash while a checkpoint is being written leaves every other file loadable as before,
and the interrupted file gives an error, never a wrong checkpoint.  What the full property asks for in
addition, that the last complete checkpoint is still found, is false: see the next theorems. -/
theorem C44_other_files_partial (m : Manager) (d d' : Dir) (hn : (names d).Nodup) (c : WCkpt)
    (hc : CkptOk m.feat c) (i k : Nat) (hk : k < (Enc.ckpt m.feat c).length)
    (hd : d'.Perm (m.crashSave d c i k)) :
    (∀ f, f ≠ .utf8 (Name.file m.keepAll m.name i) → m.loadPath d' f = m.loadPath d f) ∧
      m.loadPath d' (.utf8 (Name.file m.keepAll m.name i)) = .err .serialization := by
  refine ⟨fun f hf => ?_, loadPath_crashed hc hk hn hd⟩
  unfold loadPath
  rw [lookup_perm hd (nodup_write hn _ _), crashSave, lookup_write, if_neg hf]

/-- Part of C44, `keep_all`: after the crash each checkpoint completed for another iteration can still be
loaded from its own file. -/
theorem C44_keep_all_files_partial (m : Manager) (hk : m.keepAll = true) (d0 d' : Dir)
    (hn : (names d0).Nodup) (pre post : List (Nat × WCkpt)) (i j k : Nat) (ci cj : WCkpt)
    (hcj : CkptOk m.feat cj) (hij : i ≠ j) (hlast : ∀ s ∈ post, s.1 ≠ j)
    (hd : d'.Perm (m.crashSave (m.saveAll d0 (pre ++ (j, cj) :: post)) ci i k)) :
    m.loadPath d' (.utf8 (Name.file true m.name j)) = .ok cj := by
  refine loadPath_of_lookup hcj ?_
  rw [lookup_perm hd (nodup_write (nodup_saveAll _ hn) _ _), crashSave, lookup_write,
    if_neg (by rw [hk]; exact fun hc => hij (Name.file_inj (FName.utf8.inj hc)).symm)]
  have := lookup_saveAll (m := m) (d := d0) (pre := pre) (post := post) (i := j) (c := cj)
    (fun s hs' hc => hlast s hs' (by rw [hk] at hc; exact Name.file_inj hc))
  rwa [hk] at this

example : (mgr "run" true).loadPath
    ((mgr "run" true).crashSave ((mgr "run" true).saveAll [] ([] ++ (4, sampleCkpt) :: [])) sampleCkpt 5 7)
    (.utf8 (Name.file true "run".toList 4)) = .ok sampleCkpt :=
  C44_keep_all_files_partial _ rfl [] _ (by decide) [] [] 5 4 7 sampleCkpt sampleCkpt (sampleCkpt_ok _ _)
    (by decide) (by decide) (List.Perm.refl _)

/-- C44 is false without `keep_all`: wherever inside the write the process dies, the previous checkpoint
is gone and loading fails. -/
theorem C44_single_violated (m : Manager) (hk : m.keepAll = false) (d d' : Dir) (hn : (names d).Nodup)
    (c : WCkpt) (hc : CkptOk m.feat c) (i k : Nat) (hlt : k < (Enc.ckpt m.feat c).length)
    (hd : d'.Perm (m.crashSave d c i k)) :
    m.exists? d' = .ok true ∧ m.loadLatest d' = .err .serialization := by
  have h := loadPath_crashed hc hlt hn hd
  rw [hk] at h
  constructor
  · rw [exists?, if_neg (by rw [hk]; decide), lookup_perm hd (nodup_write hn _ _), crashSave, hk,
      lookup_write, if_pos (by rfl)]
    rfl
  · rw [loadLatest, if_neg (by rw [hk]; decide)]
    exact h

/-- C44 is false with `keep_all`: if the process dies inside the write of a later iteration than all
before, loading the latest checkpoint fails although older ones are complete. -/
theorem C44_keep_all_violated (m : Manager) (hk : m.keepAll = true) (d d' : Dir) (hn : (names d).Nodup)
    (c : WCkpt) (hc : CkptOk m.feat c) (i k : Nat) (hi : i < 2 ^ 64) (hi0 : 0 < i)
    (hlt : k < (Enc.ckpt m.feat c).length) (hnew : ∀ f ∈ names d, ∀ j, Ours m.name f j → j < i)
    (hd : d'.Perm (m.crashSave d c i k)) :
    m.exists? d' = .ok true ∧ m.loadLatest d' = .err .serialization := by
  have hmem : ∀ g, g ∈ names d' ↔ g = .utf8 (Name.file true m.name i) ∨ g ∈ names d := fun g => by
    rw [names_perm hd, crashSave, mem_names_write, hk]
  have hfind : m.findLatest d' = .ok (.utf8 (Name.file true m.name i)) := by
    refine findLatest_eq ((hmem _).2 (.inl rfl)) (iter_file _ hi) hi0 ?_ ?_
    · intro g hg j hj
      rcases (hmem g).1 hg with h | h
      · rw [h, iter_file _ hi] at hj; cases hj; exact Nat.le_refl _
      · exact Nat.le_of_lt (hnew g h j (ours_iff.2 hj))
    · intro g hg hj
      rcases (hmem g).1 hg with h | h
      · exact h
      · exact absurd (hnew g h i (ours_iff.2 hj)) (Nat.lt_irrefl _)
  have h := loadPath_crashed hc hlt hn hd
  rw [hk] at h
  constructor
  · rw [exists?, if_pos hk, hfind]
  · rw [loadLatest, if_pos hk, hfind]
    exact h

/-- A concrete crash in each mode: the checkpoint loads before it and not after it. -/
example : ∀ b : Bool,
    (mgr "run" b).loadLatest ((mgr "run" b).saveAll [] ([] ++ [(4, sampleCkpt)])) = .ok sampleCkpt ∧
    (mgr "run" b).loadLatest ((mgr "run" b).crashSave
      ((mgr "run" b).saveAll [] ([] ++ [(4, sampleCkpt)])) sampleCkpt 5 7) = .err .serialization := by
  have hlt : ∀ b, 7 < (Enc.ckpt (mgr "run" b).feat sampleCkpt).length := by decide +kernel
  intro b
  cases b
  · exact ⟨(C42_single _ rfl [] _ (by decide) [] 4 _ (sampleCkpt_ok _ _) (List.Perm.refl _)).1,
      (C44_single_violated _ rfl _ _ (nodup_saveAll _ (by decide)) _ (sampleCkpt_ok _ _) 5 7 (hlt _)
        (List.Perm.refl _)).2⟩
  · refine ⟨(C42_keep_all_partial _ rfl [] _ (by decide) (fun _ h => by cases h) [] [] 4 _ (by decide)
      (sampleCkpt_ok _ _) (List.Perm.refl _) (by decide) (by decide) (by decide)).1,
      (C44_keep_all_violated _ rfl _ _ (nodup_saveAll _ (by decide)) _ (sampleCkpt_ok _ _) 5 7 (by decide)
        (by decide) (hlt _) (fun f hf j hj => ?_) (List.Perm.refl _)).2⟩
    rw [mem_names_saveAll] at hf
    rcases hf with ⟨s, hs, rfl⟩ | hf
    · rw [ours_iff] at hj
      have hs' : s = (4, sampleCkpt) := List.mem_singleton.1 hs
      rw [hs'] at hj
      rw [show (mgr "run" true).keepAll = true from rfl, iter_file _ (by decide)] at hj
      cases hj; decide
    · cases hf

/-! ### C45 -/

/-- Operations of a manager on the directory; `crash` is a save interrupted after `k` bytes. -/
inductive Op where
  | save (c : WCkpt) (i : Nat)
  | crash (c : WCkpt) (i k : Nat)
  | cleanup (keep : Nat)

def Op.apply (m : Manager) (d : Dir) : Op → Dir
  | .save c i => m.save d c i
  | .crash c i k => m.crashSave d c i k
  | .cleanup keep =>
    match m.cleanup d keep with
    | .ok d' => d'
    | _ => d

def Op.Ok : Op → Prop
  | .save _ i => i < 2 ^ 64
  | .crash _ i _ => i < 2 ^ 64
  | .cleanup _ => True

/-- Neither name is the other one followed by an underscore and a number, unless both managers use the
same mode. -/
def Unrelated (a b : Manager) : Prop :=
  a.name ≠ b.name ∧ (a.keepAll = b.keepAll ∨ ∀ s i, Number s i →
    a.name ≠ b.name ++ ['_'] ++ s ∧ b.name ≠ a.name ++ ['_'] ++ s)

/-- Files a manager looks at. -/
def Visible (m : Manager) (f : FName) : Prop :=
  if m.keepAll then ∃ i, Ours m.name f i else f = .utf8 (m.name ++ ['.', 'b', 'i', 'n'])

theorem visible_apart {a b : Manager} (h : Unrelated a b) {f : FName} (ha : Visible a f)
    (hb : Visible b f) : False := by
  obtain ⟨hne, hm⟩ := h
  unfold Visible at ha hb
  cases hak : a.keepAll <;> cases hbk : b.keepAll <;>
    simp only [hak, hbk, Bool.false_eq_true, if_false, if_true] at ha hb
  · exact hne (List.append_cancel_right (FName.utf8.inj (ha.symm.trans hb)))
  · obtain ⟨i, s, hs, hp⟩ := hb
    rcases hm with h | h
    · rw [hak, hbk] at h; cases h
    · exact (h s i hp).1 (List.append_cancel_right (FName.utf8.inj (ha.symm.trans hs)))
  · obtain ⟨i, s, hs, hp⟩ := ha
    rcases hm with h | h
    · rw [hak, hbk] at h; cases h
    · exact (h s i hp).2 (List.append_cancel_right (FName.utf8.inj (hb.symm.trans hs)))
  · obtain ⟨i, s, hs, hp⟩ := ha
    obtain ⟨j, t, ht, hq⟩ := hb
    exact hne (Name.last_underscore (Name.parse_no_underscore (parse_number.2 hp))
      (Name.parse_no_underscore (parse_number.2 hq))
      (List.append_cancel_right (FName.utf8.inj (hs.symm.trans ht)))).1

theorem visible_file (m : Manager) {i : Nat} (hi : i < 2 ^ 64) :
    Visible m (.utf8 (Name.file m.keepAll m.name i)) := by
  unfold Visible
  cases m.keepAll
  · rfl
  · exact ⟨i, Name.fmt6 i, rfl, parse_number.1 (Name.parse_fmt6 hi)⟩

open Classical in
/-- The part of the directory a manager looks at. -/
noncomputable def view (m : Manager) (d : Dir) : Dir := d.filter fun e => decide (Visible m e.1)

theorem view_write (m : Manager) (d : Dir) (f : FName) (b : Bytes) (hf : ¬ Visible m f) :
    view m (d.write f b) = view m d := by
  unfold Dir.write
  split
  · unfold view
    clear * - hf
    induction d with
    | nil => rfl
    | cons e d ih =>
      rw [List.map_cons, List.filter_cons, List.filter_cons, ih]
      by_cases he : e.1 = f
      · have h1 : ¬ Visible m e.1 := by rw [he]; exact hf
        simp [he, hf]
      · have h1 : (if e.1 = f then (f, b) else e) = e := if_neg he
        rw [h1]
  · unfold view
    rw [List.filter_append]
    simp [hf]

theorem view_filter (m : Manager) (d : Dir) (p : FName → Bool) (hp : ∀ f, Visible m f → p f = true) :
    view m (d.filter fun e => p e.1) = view m d := by
  unfold view
  rw [List.filter_filter]
  congr 1
  funext e
  by_cases h : Visible m e.1
  · simp [h, hp _ h]
  · simp [h]

theorem view_op {a b : Manager} (h : Unrelated a b) (d : Dir) (op : Op) (ho : op.Ok) :
    view a (op.apply b d) = view a d := by
  cases op with
  | save c i => exact view_write a d _ _ fun hv => visible_apart h hv (visible_file b ho)
  | crash c i k => exact view_write a d _ _ fun hv => visible_apart h hv (visible_file b ho)
  | cleanup keep =>
    unfold Op.apply
    dsimp only
    by_cases hk : b.keepAll = true ∧ 0 < keep
    · rw [cleanup_eq hk.1 d hk.2]
      refine view_filter a d (fun f => decide (f ∉ dropped b.name d keep)) fun f hf => ?_
      rw [decide_eq_true_eq]
      intro hd
      obtain ⟨i, hi⟩ := mem_dropped_found hd
      refine visible_apart h hf ?_
      unfold Visible
      rw [if_pos hk.1]
      exact ⟨i, ours_iff.2 (mem_found.1 hi).2⟩
    · rw [cleanup_noop d (by
        cases hb : b.keepAll
        · exact .inl rfl
        · right
          by_contra hc
          exact hk ⟨hb, by omega⟩)]

theorem scan_view {m : Manager} (hk : m.keepAll = true) (d : Dir) : ∀ it best,
    scan m.name (view m d) it best = scan m.name d it best := by
  induction d with
  | nil => intro it best; rfl
  | cons e d ih =>
    intro it best
    unfold view at ih ⊢
    rw [List.filter_cons, scan_cons]
    by_cases hv : Visible m e.1
    · rw [if_pos (by simpa using hv), scan_cons]
      cases iter m.name e.1 with
      | none => exact ih _ _
      | some i =>
        dsimp only
        split
        · exact ih _ _
        · exact ih _ _
    · rw [if_neg (by simpa using hv)]
      have : iter m.name e.1 = none := by
        cases hi : iter m.name e.1 with
        | none => rfl
        | some i =>
          refine absurd ?_ hv
          unfold Visible
          rw [if_pos hk]
          exact ⟨i, ours_iff.2 hi⟩
      rw [this]
      exact ih _ _

open Classical in
theorem lookup_view {m : Manager} (d : Dir) {f : FName} (hf : Visible m f) :
    (view m d).lookup f = d.lookup f := by
  have := lookup_filter d (fun f => decide (Visible m f)) f
  unfold view
  rw [this, if_pos (by simpa using hf)]

theorem loadPath_view {m : Manager} (d : Dir) {f : FName} (hf : Visible m f) :
    m.loadPath (view m d) f = m.loadPath d f := by
  unfold loadPath
  rw [lookup_view d hf]

theorem findLatest_view {m : Manager} (hk : m.keepAll = true) (d : Dir) :
    m.findLatest (view m d) = m.findLatest d := by
  unfold findLatest
  rw [scan_view hk]

theorem loadLatest_view (m : Manager) (d : Dir) : m.loadLatest (view m d) = m.loadLatest d := by
  unfold loadLatest
  cases hk : m.keepAll
  · simp only [Bool.false_eq_true, if_false]
    exact loadPath_view d (by unfold Visible; rw [hk]; rfl)
  · simp only [if_true]
    rw [findLatest_view hk]
    rcases findLatest_spec m d with ⟨h1, -⟩ | ⟨pre, e, post, i, h1, h2, h3, -⟩
    · rw [h1]
    · rw [h2]
      exact loadPath_view d (by unfold Visible; rw [if_pos hk]; exact ⟨i, ours_iff.2 h3⟩)

theorem exists_view (m : Manager) (d : Dir) : m.exists? (view m d) = m.exists? d := by
  unfold exists?
  cases hk : m.keepAll
  · simp only [Bool.false_eq_true, if_false]
    rw [lookup_view d (by unfold Visible; rw [hk]; rfl)]
  · simp only [if_true]
    rw [findLatest_view hk]

/-- Part of C45: whatever sequence of saves, interrupted saves and cleanups manager `b` performs, manager
`a` loads the same latest checkpoint, gives the same answer to `checkpoint_exists`, and each of its own
files has the same contents, provided neither name is the other one followed by an underscore and a number
(or both managers use the same `keep_all`).  By symmetry `a` does not touch the files of `b`.  Without that
condition the property is false: `C45_violated`. -/
theorem C45_no_interference_partial (a b : Manager) (h : Unrelated a b) (d : Dir) (ops : List Op)
    (ho : ∀ op ∈ ops, op.Ok) :
    a.loadLatest (ops.foldl (Op.apply b) d) = a.loadLatest d ∧
    a.exists? (ops.foldl (Op.apply b) d) = a.exists? d ∧
    ∀ i < 2 ^ 64, (ops.foldl (Op.apply b) d).lookup (.utf8 (Name.file a.keepAll a.name i)) =
      d.lookup (.utf8 (Name.file a.keepAll a.name i)) := by
  have hv : ∀ (ops : List Op) (d : Dir), (∀ op ∈ ops, op.Ok) →
      view a (ops.foldl (Op.apply b) d) = view a d := by
    intro ops
    induction ops with
    | nil => intro d _; rfl
    | cons op ops ih =>
      intro d ho
      rw [List.foldl_cons, ih _ fun o h => ho o (List.mem_cons_of_mem _ h),
        view_op h d op (ho op List.mem_cons_self)]
  have hv := hv ops d ho
  refine ⟨?_, ?_, fun i hi => ?_⟩
  · rw [← loadLatest_view, hv, loadLatest_view]
  · rw [← exists_view, hv, exists_view]
  · rw [← lookup_view _ (visible_file a hi), hv, lookup_view _ (visible_file a hi)]

example : Unrelated (mgr "run" true) (mgr "run_b" true) ∧ Unrelated (mgr "run" true) (mgr "other" false) := by
  refine ⟨⟨by decide, .inl rfl⟩, by decide, .inr fun s i hs => ⟨fun h => ?_, fun h => ?_⟩⟩
  · have := congrArg List.length h
    simp [mgr] at this
  · have := congrArg List.head? h
    simp [mgr] at this

/-- C45 is false in general: a manager `run` keeping all checkpoints takes the only checkpoint of a manager
`run_5` for its own iteration 5, and deletes it when cleaning up. -/
theorem C45_violated :
    let a := mgr "run" true
    let b := mgr "run_5" false
    let d := a.save (b.save [] sampleCkpt 0) sampleSeq 7
    b.exists? d = .ok true ∧ a.exists? (b.save [] sampleCkpt 0) = .ok true ∧
      a.loadLatest (b.save [] sampleCkpt 0) = .ok sampleCkpt ∧
      b.exists? ((Op.cleanup 1).apply a d) = .ok false := by
  have hf : (mgr "run" true).findLatest ((mgr "run_5" false).save [] sampleCkpt 0) =
      .ok (.utf8 "run_5.bin".toList) := by decide +kernel
  refine ⟨by decide +kernel, by decide +kernel, ?_, by decide +kernel⟩
  rw [loadLatest, if_pos (show (mgr "run" true).keepAll = true from rfl), hf]
  refine loadPath_of_lookup (sampleCkpt_ok _ _) ?_
  rw [save, lookup_write]
  exact if_pos rfl

end GS.Props
