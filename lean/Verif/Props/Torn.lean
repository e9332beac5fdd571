/- C99, C100: checkpoints that cannot be read, and programs killed while writing one. -/
import Verif.Lemmas.Torn
import Verif.Props.Rerun

namespace GS.Props
open GS F64 GS.Witness Manager Dir
variable {n : Nat}

/-! ### C99 -/

/-- C99: with automatic resumption, a checkpoint that cannot be loaded makes the run fail with the error of
loading it.  Nothing was evaluated, searched, written or reported, and the optimizer is as before, except for
the timers of its observer. -/
theorem C99_run (env : Env n) (o : Opt n) (e : CkErr) (ha : ∃ cfg, o.ckpt = some cfg ∧ cfg.autoResume = true) :
    (run env o (some (.error e))).result = .error (.checkpoint e) ∧
      (run env o (some (.error e))).final.trace = [] ∧
      ∃ ob, (run env o (some (.error e))).final.opt = { o with obs := ob } := by
  obtain ⟨cfg, h1, h2⟩ := ha
  have h3 : (Act.obsStart env ⟨o, 0, 0, []⟩).1.opt.tryResume (some (.error e)) = .error (.checkpoint e) := by
    unfold Opt.tryResume
    rw [show (Act.obsStart env ⟨o, 0, 0, []⟩).1.opt.ckpt = some cfg from h1]
    dsimp only
    rw [if_pos h2]
  unfold run
  dsimp only
  rw [h3]
  exact ⟨rfl, rfl, _, rfl⟩

/-- C99: without automatic resumption the checkpoint is not looked at. -/
theorem C99_ignored (env : Env n) (o : Opt n) (loaded : Option (Except CkErr (Ckpt n)))
    (ha : ∀ cfg, o.ckpt = some cfg → cfg.autoResume = false) : run env o loaded = run env o none := by
  have h : ∀ m : M n, m.opt.ckpt = o.ckpt → m.opt.tryResume loaded = m.opt.tryResume none := by
    intro m hm
    unfold Opt.tryResume
    rw [hm]
    cases hc : o.ckpt with
    | none => rfl
    | some cfg =>
      dsimp only
      rw [ha cfg hc]; rfl
  unfold run
  dsimp only
  rw [h _ rfl]

/-- C99: resuming by hand reports the error of loading too, and gives no optimizer. -/
theorem C99_by_hand (env : Env n) (o : Opt n) (e : CkErr) (new : Params) (hc : o.ckpt.isSome = true) :
    o.resumeWith env (some (.error e)) new = .error (.checkpoint e) ∧
      o.resumeFrom (.error e) new = .error (.checkpoint e) := by
  obtain ⟨cfg, h⟩ := Option.isSome_iff_exists.1 hc
  unfold Opt.resumeWith Opt.resumeFrom
  rw [h]
  exact ⟨rfl, rfl⟩

/-- The program finds a checkpoint that it cannot load, in whatever order the files are listed. -/
def Blocked (m : Manager) (n : Nat) (d : Dir) (e : CkErr) : Prop :=
  ∀ d', d'.Perm d → m.finds n d' = some (some (.error e))

/-- C99: a program that finds an unreadable checkpoint leaves the directory as it is, so it fails again
however often it is started. -/
theorem C99_lives {m : Manager} {o : Opt n} (hr : Restarts m o) {d : Dir} {e : CkErr} (hb : Blocked m n d e)
    {h : List (Env n × List (Event n))} {d' : Dir} (hl : Lives m o d h d') :
    d'.Perm d ∧ (∀ x ∈ h, x.2 = []) ∧ ∀ env loaded, m.finds n d' = some loaded →
      (run env o loaded).result = .error (.checkpoint e) := by
  obtain ⟨-, cfg, hc, ha, -⟩ := hr
  have key : d'.Perm d ∧ ∀ x ∈ h, x.2 = [] := by
    induction hl with
    | start => exact ⟨List.Perm.refl _, fun x hx => by cases hx⟩
    | @next h d1 env tr d2 _ hlife ih =>
      obtain ⟨i1, i2⟩ := ih
      obtain ⟨⟨loaded, hfind, htr⟩, -, -, hdir⟩ := hlife
      rw [hb d1 i1] at hfind
      cases hfind
      rw [(C99_run env o e ⟨cfg, hc, ha⟩).2.1] at htr
      have := List.prefix_nil.1 htr
      subst this
      refine ⟨hdir.trans i1, fun x hx => ?_⟩
      rcases List.mem_append.1 hx with h | h
      · exact i2 x h
      · rw [List.mem_singleton.1 h]
  refine ⟨key.1, key.2, fun env loaded hf => ?_⟩
  rw [hb d' key.1] at hf
  cases hf
  exact (C99_run env o e ⟨cfg, hc, ha⟩).1

/-! ### C100 -/

theorem finds_error {m : Manager} {d : Dir} {e : CkErr} (h1 : m.exists? d = .ok true)
    (h2 : m.loadLatest d = .err e) : m.finds n d = some (some (.error e)) := by
  unfold Manager.finds Manager.discover
  rw [h1, h2]

/-- C100 does not hold without `keep_all`: wherever inside the write of whichever checkpoint the program was
killed, it never runs again.  However often it is started, it does nothing but fail, and the directory stays
as it is. -/
theorem C100_single_violated {m : Manager} {o : Opt n} {d0 d d' : Dir} (hr : Restarts m o)
    (hk : m.keepAll = false) (hn : (names d0).Nodup) {h : List (Env n × List (Event n))}
    (hl : Lives m o d0 h d) {env : Env n} {tr : List (Event n)} {it k : Nat} {c : Ckpt n}
    (ht : Torn m o d env tr it c k d') {h' : List (Env n × List (Event n))} {d'' : Dir}
    (hl' : Lives m o d' h' d'') :
    d''.Perm d' ∧ (∀ x ∈ h', x.2 = []) ∧ m.finds n d'' = some (some (.error .serialization)) ∧
      ∀ env', (run env' o (some (.error .serialization))).result = .error (.checkpoint .serialization) := by
  have hb : Blocked m n d' .serialization := by
    intro d1 hd1
    have hnd := ((hl.files hn).life ht.life).nodup
    obtain ⟨h1, h2⟩ := C44_single_violated m hk _ d1 hnd c.toWire ht.value it k ht.inside (hd1.trans ht.dir)
    exact finds_error h1 h2
  obtain ⟨h1, h2, h3⟩ := C99_lives hr hb hl'
  exact ⟨h1, h2, hb _ h1, fun env' => h3 env' _ (hb _ h1)⟩

/-- C100 does not hold with `keep_all` either: killed inside the write of a checkpoint of iteration above 0,
a sequential program never runs again, although older checkpoints are complete. -/
theorem C100_keep_all_violated {m : Manager} {o : Opt n} {d0 d d' : Dir} (hr : Restarts m o)
    (hk : m.keepAll = true) (hseq : o.seqConfigured) (hc : Clean m d0)
    {h : List (Env n × List (Event n))} (hp : ∀ x ∈ h, Polite x.1) (hl : Lives m o d0 h d) {env : Env n}
    (hpe : Polite env) {tr : List (Event n)} {it k : Nat} {c : Ckpt n} (ht : Torn m o d env tr it c k d')
    (hit : 0 < it) {h' : List (Env n × List (Event n))} {d'' : Dir} (hl' : Lives m o d' h' d'') :
    d''.Perm d' ∧ (∀ x ∈ h', x.2 = []) ∧ m.finds n d'' = some (some (.error .serialization)) ∧
      ∀ env', (run env' o (some (.error .serialization))).result = .error (.checkpoint .serialization) := by
  have hfile := (hl.files hc.nodup).life ht.life
  obtain ⟨hris, h64⟩ := Torn.rising hr hk hseq hc hp hl hpe ht
  have hi64 : it < 2 ^ 64 := h64 (it, c) (by simp)
  have hle : ∀ s ∈ allWritten h ++ written tr, s.1 ≤ it := by
    intro s hs
    by_cases h0 : 0 < s.1
    · rw [List.filter_append, List.pairwise_append] at hris
      refine hris.2.2 s (List.mem_filter.2 ⟨hs, ?_⟩) (it, c) (List.mem_filter.2 ⟨List.mem_singleton.2 rfl, ?_⟩)
      · unfold Manager.counts; simp [h0]
      · unfold Manager.counts; simp [hit]
    · omega
  have hb : Blocked m n d' .serialization := by
    intro d1 hd1
    have hdir := hd1.trans ht.dir
    have hmem : ∀ g, g ∈ names d1 ↔ g = .utf8 (Name.file true m.name it) ∨ g ∈ names (m.after d tr) :=
      fun g => by rw [names_perm hdir, crashSave, mem_names_write, hk]
    have hours : ∀ g ∈ names d1, ∀ j, iter m.name g = some j →
        g = .utf8 (Name.file true m.name j) ∧ j ≤ it := by
      intro g hg j hj
      rcases (hmem g).1 hg with rfl | h
      · rw [iter_file _ hi64] at hj
        cases hj
        exact ⟨rfl, Nat.le_refl _⟩
      · rcases (hfile.names g).1 h with ⟨s, hs, rfl⟩ | h
        · rw [hk] at hj ⊢
          rw [iter_file _ (h64 s (List.mem_append_left _ hs))] at hj
          cases hj
          exact ⟨rfl, hle s hs⟩
        · exact absurd (ours_iff.2 hj) (hc.numbered g h j)
    have hfind : m.findLatest d1 = .ok (.utf8 (Name.file true m.name it)) :=
      findLatest_eq ((hmem _).2 (.inl rfl)) (iter_file _ hi64) hit (fun g hg j hj => (hours g hg j hj).2)
        fun g hg hj => (hours g hg it hj).1
    have hld := loadPath_crashed ht.value ht.inside hfile.nodup hdir
    rw [hk] at hld
    refine finds_error ?_ ?_
    · rw [exists?, if_pos hk, hfind]
    · rw [loadLatest, if_pos hk, hfind]
      exact hld
  obtain ⟨h1, h2, h3⟩ := C99_lives hr hb hl'
  exact ⟨h1, h2, hb _ h1, fun env' => h3 env' _ (hb _ h1)⟩

/-- Part of C100, with `keep_all`, for sequential configurations: after the interrupted file was removed by
hand, the next start resumes from the last checkpoint of another iteration (above 0).  Nothing else in the
directory needs repair.
Missing: the removal is the user's (`C100_keep_all_violated`), and if an earlier checkpoint had the same
number it is lost. -/
theorem C100_repaired_partial {m : Manager} {o : Opt n} {d0 d d' d'' : Dir} (hr : Restarts m o)
    (hk : m.keepAll = true) (hseq : o.seqConfigured) (hc : Clean m d0)
    {h : List (Env n × List (Event n))} (hp : ∀ x ∈ h, Polite x.1) (hl : Lives m o d0 h d) {env : Env n}
    (hpe : Polite env) {tr : List (Event n)} {it k : Nat} {c : Ckpt n} (ht : Torn m o d env tr it c k d')
    (hrm : d''.Perm (d'.remove (.utf8 (Name.file true m.name it)))) :
    m.finds n d'' = some (((allWritten (h ++ [(env, tr)])).filter fun s =>
      decide (0 < s.1) && decide (s.1 ≠ it)).getLast?.map fun s => .ok s.2) := by
  have hfile := (hl.files hc.nodup).life ht.life
  obtain ⟨hris, h64⟩ := Torn.rising hr hk hseq hc hp hl hpe ht
  rw [List.filter_append, List.pairwise_append] at hris
  replace hris := hris.1
  have hw : allWritten (h ++ [(env, tr)]) = allWritten h ++ written tr := by
    unfold allWritten
    rw [List.map_append, List.map_singleton, flatten_snoc, written_append]
  rw [hw]
  replace h64 : ∀ s ∈ allWritten h ++ written tr, s.1 < 2 ^ 64 := fun s hs => h64 s (List.mem_append_left _ hs)
  generalize allWritten h ++ written tr = w at hfile hris h64
  have hnd' : (names d').Nodup := (ht.dir.map _).nodup_iff.2 (nodup_write hfile.nodup _ _)
  have hndr : (names (d'.remove (.utf8 (Name.file true m.name it)))).Nodup := by
    unfold Dir.remove Dir.names
    exact hnd'.sublist (List.filter_sublist.map _)
  have hlook : ∀ g, d''.lookup g = if g = .utf8 (Name.file true m.name it) then none
      else (m.after d tr).lookup g := by
    intro g
    rw [lookup_perm hrm hndr, lookup_remove, lookup_perm ht.dir (nodup_write hfile.nodup _ _), crashSave,
      lookup_write, hk]
    split <;> simp_all
  have hours : ∀ g ∈ names d'', ∀ j, iter m.name g = some j →
      g = .utf8 (Name.file true m.name j) ∧ j ≠ it ∧ ∃ s ∈ w, s.1 = j := by
    intro g hg j hj
    rw [← lookup_isSome, hlook] at hg
    split at hg
    · cases hg
    · rename_i hne
      rw [lookup_isSome, hfile.names] at hg
      rcases hg with ⟨s, hs, rfl⟩ | h
      · rw [hk] at hj hne ⊢
        rw [iter_file _ (h64 s hs)] at hj
        cases hj
        exact ⟨rfl, fun e => hne (by rw [e]), s, hs, rfl⟩
      · exact absurd (ours_iff.2 hj) (hc.numbered g h j)
  cases hlast : (w.filter fun s => decide (0 < s.1) && decide (s.1 ≠ it)).getLast? with
  | none =>
    have hnil := List.getLast?_eq_none_iff.1 hlast
    have hf : m.findLatest d'' = .err .notFound := findLatest_none fun g hg j hj => by
      obtain ⟨-, hne, s, hs, rfl⟩ := hours g hg j hj
      by_contra h0
      have : s ∈ w.filter fun s => decide (0 < s.1) && decide (s.1 ≠ it) :=
        List.mem_filter.2 ⟨hs, by simp [hne]; omega⟩
      rw [hnil] at this
      cases this
    refine finds_none ?_
    rw [exists?, if_pos hk, hf]
  | some s =>
    have hmem := List.mem_filter.1 (List.mem_of_getLast? hlast)
    simp only [Bool.and_eq_true, decide_eq_true_eq] at hmem
    obtain ⟨hsw, hs0, hsit⟩ := hmem
    have hsub : (w.filter fun s => decide (0 < s.1) && decide (s.1 ≠ it)).Pairwise
        (fun x y => x.1 ≤ y.1) := by
      refine hris.sublist ?_
      rw [show (fun s : Nat × Ckpt n => m.counts s.1) = fun s => decide (0 < s.1) from by
        funext s; unfold Manager.counts; rw [hk]; rfl]
      rw [show (w.filter fun s => decide (0 < s.1) && decide (s.1 ≠ it)) =
        (w.filter fun s => decide (0 < s.1)).filter fun s => decide (s.1 ≠ it) from by
          rw [List.filter_filter]; congr 1; funext s; exact Bool.and_comm _ _]
      exact List.filter_sublist
    have hmax := pairwise_last hsub hlast
    have hlk : d''.lookup (.utf8 (Name.file true m.name s.1)) = some (Enc.ckpt m.feat s.2.toWire) := by
      rw [hlook, if_neg (fun e => hsit (Name.file_inj (FName.utf8.inj e)))]
      obtain ⟨pre, hpre⟩ := List.getLast?_eq_some_iff.1 hlast
      obtain ⟨w1, w2, rfl, e1, e2⟩ := List.filter_eq_append_iff.1 hpre
      obtain ⟨p, q, rfl, -, -, e3⟩ := List.filter_eq_cons_iff.1 e2
      refine hfile.last hk (pre := w1 ++ p) (post := q) (by simp) fun x hx e => ?_
      have := List.filter_eq_nil_iff.1 e3 x hx
      rw [e] at this
      simp [hs0, hsit] at this
    have hcv := hfile.values s hsw
    have hf : m.findLatest d'' = .ok (.utf8 (Name.file true m.name s.1)) := by
      refine findLatest_eq (lookup_isSome.1 (by rw [hlk]; rfl)) (iter_file _ (h64 s hsw)) hs0 ?_ ?_
      · intro g hg j hj
        obtain ⟨-, hne, x, hx, rfl⟩ := hours g hg j hj
        by_cases h0 : 0 < x.1
        · exact hmax x (List.mem_filter.2 ⟨hx, by simp [hne, h0]⟩)
        · omega
      · intro g hg hj
        exact (hours g hg _ hj).1
    refine finds_of_load hcv ?_ ?_
    · rw [exists?, if_pos hk, hf]
    · rw [loadLatest, if_pos hk, hf]
      exact loadPath_of_lookup hcv hlk

/-- Part of C100, without `keep_all`: after the interrupted file was removed by hand the program starts
afresh.
Missing: everything found before is lost, and the removal is the user's (`C100_single_violated`). -/
theorem C100_afresh_partial {m : Manager} {o : Opt n} {d0 d d' d'' : Dir} (hk : m.keepAll = false)
    (hn : (names d0).Nodup) {h : List (Env n × List (Event n))} (hl : Lives m o d0 h d) {env : Env n}
    {tr : List (Event n)} {it k : Nat} {c : Ckpt n} (ht : Torn m o d env tr it c k d')
    (hrm : d''.Perm (d'.remove (.utf8 (Name.file false m.name it)))) : m.finds n d'' = some none := by
  have hnd' : (names d').Nodup :=
    (ht.dir.map _).nodup_iff.2 (nodup_write ((hl.files hn).life ht.life).nodup _ _)
  have hndr : (names (d'.remove (.utf8 (Name.file false m.name it)))).Nodup := by
    unfold Dir.remove Dir.names
    exact hnd'.sublist (List.filter_sublist.map _)
  refine finds_none ?_
  rw [exists?, if_neg (by rw [hk]; decide), lookup_perm hrm hndr, lookup_remove,
    if_pos (show FName.utf8 (Name.file false m.name 0) = .utf8 (Name.file false m.name it) from rfl)]
  rfl

/-! ### Cases that meet the hypotheses -/

/-- The number and contents of the checkpoint that is event number `j`. -/
def savedAt (j : Nat) (tr : List (Event n)) : Option (Nat × Ckpt n) :=
  match tr.drop j with
  | .saved it c :: _ => some (it, c)
  | _ => none

/-- A lifetime killed after `k` bytes of the write that is event number `j`. -/
theorem Torn.cut {m : Manager} {o : Opt n} {d : Dir} {env : Env n}
    {loaded : Option (Except CkErr (Ckpt n))} (hf : m.finds n d = some loaded) (j k : Nat) {it : Nat}
    {c : Ckpt n} (hs : savedAt j (run env o loaded).final.trace = some (it, c))
    (hg : goodWrites m.feat ((run env o loaded).final.trace.take (j + 1)) = true)
    (hk : k < (Enc.ckpt m.feat c.toWire).length) :
    Torn m o d env ((run env o loaded).final.trace.take j) it c k
      (m.crashSave (m.after d ((run env o loaded).final.trace.take j)) c.toWire it k) := by
  have ht : (run env o loaded).final.trace.take (j + 1) =
      (run env o loaded).final.trace.take j ++ [.saved it c] := by
    unfold savedAt at hs
    split at hs
    · rename_i i c' rest h
      cases hs
      rw [List.take_succ, ← List.head?_drop, h]; rfl
    · cases hs
  obtain ⟨g1, g2⟩ := goodWrites_ok hg
  rw [ht] at g1 g2
  exact ⟨⟨loaded, hf, ht ▸ List.take_prefix _ _⟩, fun i c' hm => g1 i c' (List.mem_append_left _ hm), g2, hk,
    List.Perm.refl _⟩

/-- Event number `j` is a write of iteration `it` of more than `k` bytes. -/
def writesAt (m : Manager) (j it k : Nat) (tr : List (Event n)) : Bool :=
  match savedAt j tr with
  | some (i, c) => decide (i = it) && decide (k < (Enc.ckpt m.feat c.toWire).length)
  | none => false

theorem writesAt_some {m : Manager} {j it k : Nat} {tr : List (Event n)} (h : writesAt m j it k tr = true) :
    ∃ c, savedAt j tr = some (it, c) ∧ k < (Enc.ckpt m.feat c.toWire).length := by
  unfold writesAt at h
  split at h
  · rename_i i c hs
    simp only [Bool.and_eq_true, decide_eq_true_eq] at h
    exact ⟨c, by rw [hs, h.1], h.2⟩
  · cases h

theorem Life.nothing {m : Manager} {o : Opt n} {d : Dir} {env : Env n}
    {loaded : Option (Except CkErr (Ckpt n))} (hf : m.finds n d = some loaded) : Life m o d env [] d :=
  ⟨⟨loaded, hf, List.nil_prefix⟩, fun _ _ h => (by cases h), fun _ h => (by cases h), List.Perm.refl _⟩

/-- A batched run that keeps one file, killed inside its third write, and started again. -/
example : ∃ (c : Ckpt 1) (d' : Dir), Restarts oneFile kept1 ∧ (names []).Nodup ∧
    Lives oneFile kept1 [] [] [] ∧ Torn oneFile kept1 [] inOrder ((run inOrder kept1 none).final.trace.take 10) 3 c 100 d' ∧
    Blocked oneFile 1 d' .serialization ∧ Lives oneFile kept1 d' [(inOrder, [])] d' := by
  obtain ⟨c, hc, hlen⟩ := writesAt_some (m := oneFile) (j := 10) (it := 3) (k := 100)
    (tr := (run inOrder kept1 none).final.trace) (by decide +kernel)
  have ht := Torn.cut (m := oneFile) (o := kept1) (d := []) (env := inOrder) (finds_none rfl) 10 100 hc
    (by decide +kernel) hlen
  have hb : Blocked oneFile 1 _ .serialization := fun d1 hd1 =>
    (C100_single_violated kept1_restarts rfl (by simp [names]) .start
      (d' := d1) ⟨ht.run, ht.noFailure, ht.values, ht.inside, hd1.trans ht.dir⟩ .start).2.2.1
  refine ⟨c, _, kept1_restarts, by simp [names], .start, ht, hb, ?_⟩
  exact Lives.next (h := []) .start (Life.nothing (hb _ (List.Perm.refl _)))

/-- A sequential run with numbered files, killed while it writes the checkpoint of iteration 2; after the
removal of that file it resumes from that of iteration 1. -/
example : ∃ (c c1 : Ckpt 1) (d' : Dir), Restarts numbered stepped ∧ stepped.seqConfigured ∧
    Clean numbered [] ∧ Polite inOrder ∧ Lives numbered stepped [] [] [] ∧
    Torn numbered stepped [] inOrder ((run inOrder stepped none).final.trace.take 11) 2 c 100 d' ∧
    numbered.finds 1 (d'.remove (.utf8 (Name.file true numbered.name 2))) = some (some (.ok c1)) ∧
    c1.currentIteration = 1 := by
  have hr : Restarts numbered stepped := ⟨Built.parallel false batched_built, _, rfl, rfl, rfl⟩
  obtain ⟨c, hc, hlen⟩ := writesAt_some (m := numbered) (j := 11) (it := 2) (k := 100)
    (tr := (run inOrder stepped none).final.trace) (by decide +kernel)
  have ht := Torn.cut (m := numbered) (o := stepped) (d := []) (env := inOrder) (finds_none (by decide +kernel))
    11 100 hc (by decide +kernel) hlen
  have hp : Polite inOrder := fun _ _ _ => ⟨rfl, rfl⟩
  have hf := C100_repaired_partial hr rfl (Or.inl rfl) (clean_empty _) (h := []) (by simp) .start hp ht
    (List.Perm.refl _)
  have h1 : (((allWritten ([] ++ [(inOrder, (run inOrder stepped none).final.trace.take 11)])).filter fun s =>
      decide (0 < s.1) && decide (s.1 ≠ 2)).getLast?.map fun s => s.2.currentIteration) = some 1 := by
    decide +kernel
  obtain ⟨s, hs, h1⟩ := Option.map_eq_some_iff.1 h1
  rw [hs] at hf
  exact ⟨c, s.2, _, hr, Or.inl rfl, clean_empty _, hp, .start, ht, hf, h1⟩

/-- A checkpoint that cannot be loaded. -/
example : ∃ cfg, kept1.ckpt = some cfg ∧ cfg.autoResume = true := ⟨_, rfl, rfl⟩

end GS.Props
