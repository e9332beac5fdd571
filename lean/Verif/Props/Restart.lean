/- C93, C94: a program that checkpoints and is started again after interruptions. -/
import Verif.Lemmas.Restart
import Verif.Props.SaveOrder
import Verif.Props.Rerun

namespace GS.Props
open GS F64 GS.Witness Manager Dir
variable {n : Nat}

/-- A directory in which no checkpoint of this name was written. -/
structure Clean (m : Manager) (d : Dir) : Prop where
  nodup : (names d).Nodup
  single : FName.utf8 (m.name ++ ['.', 'b', 'i', 'n']) ∉ names d
  numbered : ∀ f ∈ names d, ∀ i, ¬ Ours m.name f i

/-- The checkpoints written in some lifetimes, oldest first. -/
def allWritten (h : List (Env n × List (Event n))) : List (Nat × Ckpt n) := written (h.map Prod.snd).flatten

/-! ### C93 -/

/-- C93 without `keep_all`: however often the program was interrupted, wherever, sequential or parallel, and
in whatever order the directory lists its files, a restart finds the checkpoint written last; and none if
none was written. -/
theorem C93_single {m : Manager} {o : Opt n} {d0 d : Dir} (hr : Restarts m o) (hk : m.keepAll = false)
    (hc : Clean m d0) {h : List (Env n × List (Event n))} (hl : Lives m o d0 h d) :
    m.finds n d = some ((allWritten h).getLast?.map fun s => .ok s.2) := by
  have hi := LifeInv.all hr hc.nodup hc.single hc.numbered (fun e => by rw [hk] at e; cases e) hl
  rw [hi.found]
  unfold Manager.lastIn allWritten
  rw [List.filter_eq_self.2]
  intro s _
  unfold Manager.counts
  rw [hk]; rfl

/-- C93 with `keep_all`, for sequential configurations: a restart finds the checkpoint written last, of those
with an iteration above 0.
Missing: those of iteration 0, which are never found (`C42_iteration_zero_violated`), and parallel runs
(`C93_violated`). -/
theorem C93_keep_all_partial {m : Manager} {o : Opt n} {d0 d : Dir} (hr : Restarts m o)
    (hk : m.keepAll = true) (hseq : o.seqConfigured) (hc : Clean m d0)
    {h : List (Env n × List (Event n))} (hp : ∀ x ∈ h, Polite x.1) (hl : Lives m o d0 h d) :
    m.finds n d = some (((allWritten h).filter fun s => decide (0 < s.1)).getLast?.map fun s => .ok s.2) := by
  have hi := LifeInv.all hr hc.nodup hc.single hc.numbered (fun _ => ⟨hseq, hp⟩) hl
  rw [hi.found]
  unfold Manager.lastIn allWritten Manager.counts
  rw [hk]; rfl

/-! ### C94 -/

/-- Every checkpoint that counts holds the fold of an initial part of what was kept. -/
theorem kept_prefix {m : Manager} {o : Opt n} {d0 d : Dir} (hr : Restarts m o) (hc : Clean m d0)
    {h : List (Env n × List (Event n))} (hmode : m.keepAll = true → o.seqConfigured ∧ ∀ x ∈ h, Polite x.1)
    (hl : Lives m o d0 h d) : ∀ s ∈ allWritten h, m.counts s.1 = true →
      ∃ p, p <+: procs (m.keptOf (h.map Prod.snd)) ∧ s.2.solutionSet = setFold o.setCfg none p := by
  induction hl with
  | start => intro s hs; simp [allWritten, written] at hs
  | @next h d env tr d' hl hlife ih =>
    have hm' : m.keepAll = true → o.seqConfigured ∧ ∀ x ∈ h, Polite x.1 := fun hk =>
      ⟨(hmode hk).1, fun x hx => (hmode hk).2 x (by simp [hx])⟩
    have hi := LifeInv.all hr hc.nodup hc.single hc.numbered hm' hl
    intro s hs hcount
    rw [List.map_append, List.map_singleton, keptOf_snoc, procs_append]
    have hw : allWritten (h ++ [(env, tr)]) = allWritten h ++ written tr := by
      simp [allWritten, written_append, List.flatten_append]
    rw [hw] at hs
    rcases List.mem_append.1 hs with hs | hs
    · obtain ⟨p, hp, he⟩ := ih hm' s hs hcount
      exact ⟨p, hp.trans (List.prefix_append _ _), he⟩
    · obtain ⟨⟨loaded, hfind, htr⟩, -, -, -⟩ := hlife
      rw [hi.found] at hfind
      cases hfind
      obtain ⟨o1, res, hst, hne, hcfg, hset, -⟩ := life_start hr hi env
      unfold written at hs
      rw [List.mem_filterMap] at hs
      obtain ⟨e, he, hs⟩ := hs
      cases e with
      | saved it c =>
        cases hs
        obtain ⟨a, b, hab⟩ := List.append_of_mem he
        obtain ⟨rest, hrest⟩ := id htr
        have hcont := (C49_contents hst hne (pre := a) (post := b ++ rest) (it := it) (c := c) (by
          rw [← hrest, hab]; simp)).2.1
        refine ⟨procs (m.keptOf (h.map Prod.snd)) ++ procs a, ?_, ?_⟩
        · rw [List.prefix_append_right_inj]
          rcases upTo_cases m tr with ⟨_, _, u3⟩ | ⟨pre, it', c', post, u1, u2, u3, u4, u5⟩
          · have := u3 (it, c) (List.mem_filterMap.2 ⟨_, he, rfl⟩)
            rw [hcount] at this; cases this
          · have hpre : a <+: pre := by
              rw [u1] at hab
              rcases List.append_eq_append_iff.1 hab with ⟨x, h1, h2⟩ | ⟨x, h1, h2⟩
              · cases x with
                | nil => rw [List.append_nil] at h1; rw [h1]
                | cons y ys =>
                  rw [List.cons_append] at h2
                  have h2 := (List.cons.inj h2).2
                  have := u5 (it, c) (List.mem_filterMap.2
                    ⟨.saved it c, by rw [h2]; simp, rfl⟩)
                  rw [hcount] at this; cases this
              · exact ⟨x, h1.symm⟩
            rw [u3, procs_append]
            obtain ⟨y, hy⟩ := hpre
            rw [← hy, procs_append, List.append_assoc]
            exact List.prefix_append _ _
        · rw [hcont, hcfg, hset, setFold_append]
      | _ => cases hs

/-- When restarts find the last checkpoint (C93). -/
def Follows (m : Manager) (o : Opt n) (h : List (Env n × List (Event n))) : Prop :=
  m.keepAll = true → o.seqConfigured ∧ ∀ x ∈ h, Polite x.1

/-- C94: the set returned by the last of several runs, all earlier ones interrupted at any point (or
completed), is what processing the local solutions found before the last checkpoint of each interrupted
run, followed by those of the last run, gives, as in one run.  It has the properties proved for the set of a
single run (C02, C03, C87).  Nothing is assumed about the environments: every run may be scheduled
differently, and local searches may return something else. -/
theorem C94_set {m : Manager} {o : Opt n} {d0 d : Dir} (hr : Restarts m o) (hc : Clean m d0)
    {h : List (Env n × List (Event n))} (hmode : Follows m o h) (hl : Lives m o d0 h d)
    {env : Env n} {loaded : Option (Except CkErr (Ckpt n))} (hf : m.finds n d = some loaded)
    {set : List (Sol n)} (hok : (run env o loaded).result = .ok set) :
    (afterAll o (procs (m.keptOf (h.map Prod.snd)) ++ procs (run env o loaded).final.trace)).solset =
        some set ∧
      GoodSet o.absTol o.relTol o.params.distanceFactor set ∧
      Explains (admissible o) o.absTol o.relTol o.params.distanceFactor
        (procs (m.keptOf (h.map Prod.snd)) ++ procs (run env o loaded).final.trace) set := by
  have hi := LifeInv.all hr hc.nodup hc.single hc.numbered hmode hl
  rw [hi.found] at hf
  cases hf
  obtain ⟨o1, res, hst, hne, hcfg, hset, -⟩ := life_start hr hi env
  have hh := histInv hne (run_reach env o _ hst)
  have h1 := hh.solset
  rw [(run_ok hok).1, hcfg, hset, ← setFold_append] at h1
  have hn := hr.built.unused.solset
  refine ⟨by rw [afterAll_solset, hn]; exact h1.symm, ?_⟩
  exact ⟨goodSet_fold (c := o.setCfg) _ (by simp) set h1.symm, (explains_fold o.setCfg _).2 set h1.symm⟩

/-- C94: the best solution of any checkpoint ever written (with `keep_all`, of iteration above 0) is not
lost: whatever happens afterwards, every later completed run returns it or a strictly better one first. -/
theorem C94_first {m : Manager} {o : Opt n} {d0 d : Dir} (hr : Restarts m o) (hc : Clean m d0)
    {h : List (Env n × List (Event n))} (hmode : Follows m o h) (hl : Lives m o d0 h d)
    {env : Env n} {loaded : Option (Except CkErr (Ckpt n))} (hf : m.finds n d = some loaded)
    {set : List (Sol n)} (hok : (run env o loaded).result = .ok set) (ha : F64.le F64.zero o.absTol = true)
    {it : Nat} {c : Ckpt n} (hw : (it, c) ∈ allWritten h) (hit : m.keepAll = true → 0 < it)
    {hd : Sol n} {tl : List (Sol n)} (hs : c.solutionSet = some (hd :: tl)) :
    ∃ hd' tl', set = hd' :: tl' ∧ (hd' = hd ∨ F64.lt hd'.objective hd.objective = true) := by
  have hcount : m.counts it = true := by
    unfold Manager.counts
    cases hk : m.keepAll with
    | false => rfl
    | true => simpa using hit hk
  obtain ⟨p, ⟨q, hq⟩, hp⟩ := kept_prefix hr hc hmode hl (it, c) hw hcount
  have h1 := (C94_set hr hc hmode hl hf hok).1
  rw [afterAll_solset, hr.built.unused.solset, ← hq, List.append_assoc, setFold_append, ← hp, hs] at h1
  obtain ⟨hd', tl', e, k⟩ := head_fold (c := o.setCfg) ha (q ++ procs (run env o loaded).final.trace)
    (hd := hd) (tl := tl)
  rw [e] at h1
  cases h1
  exact ⟨hd', tl', rfl, k⟩

/-! ### Cases that meet the hypotheses -/

instance (l : LineSearchMethod) : Decidable (LineOk l) := match l with
  | .moreThuente _ _ _ b => inferInstanceAs (Decidable (Short b))
  | .hagerZhang _ _ _ _ _ _ b => inferInstanceAs (Decidable (Short b))

instance (f : Feat) (c : SolverConfig) : Decidable (ConfigOk f c) := match c with
  | .lbfgs _ _ _ _ _ _ => inferInstanceAs (Decidable (_ ∧ _))
  | .nelderMead _ _ _ _ _ _ _ => inferInstanceAs (Decidable (_ ∧ _))
  | .steepestDescent _ _ => inferInstanceAs (Decidable (_ ∧ _))
  | .trustRegion _ _ _ _ _ => inferInstanceAs (Decidable (_ ∧ _))
  | .newtonCG _ _ _ _ => inferInstanceAs (Decidable (_ ∧ _))
  | .cobyla _ _ _ _ _ _ => inferInstanceAs (Decidable (_ ∧ _))

instance (f : Feat) (p : Params) : Decidable (ParamsOk f p) :=
  have : Decidable (TypeOk f p.solverType) := inferInstanceAs (Decidable (_ → _))
  inferInstanceAs (Decidable (_ ∧ _))

/-- A check for `CkptOk`. -/
def ckptOkB (f : Feat) (c : WCkpt) : Bool :=
  decide (ParamsOk f c.params) && decide (c.currentIteration < 2 ^ 64) &&
  (match c.solutionSet with
    | none => true
    | some l => decide (Short l) && l.all fun s => decide (SolOk s)) &&
  (decide (Short c.referenceSet) && c.referenceSet.all fun p => decide (Short p)) &&
  decide (c.unchangedCycles < 2 ^ 64) &&
  (decide (Short c.distanceFilterSolutions) && c.distanceFilterSolutions.all fun s => decide (SolOk s)) &&
  decide (c.currentSeed < 2 ^ 64) && (c.rayon.isSome == f.rayon) &&
  (match c.rayon with
    | some (some b, _) => decide (b < 2 ^ 64)
    | _ => true) &&
  decide (c.timestamp.toByteArray.data.toList.length < 2 ^ 64)

theorem ckptOkB_sound {f : Feat} {c : WCkpt} (h : ckptOkB f c = true) : CkptOk f c := by
  unfold ckptOkB at h
  simp only [Bool.and_eq_true, decide_eq_true_eq, List.all_eq_true, beq_iff_eq] at h
  obtain ⟨⟨⟨⟨⟨⟨⟨⟨⟨h1, h2⟩, h3⟩, h4⟩, h5⟩, h6⟩, h7⟩, h8⟩, h9⟩, h10⟩ := h
  refine ⟨h1, h2, fun l hl => ?_, h4, h5, h6, h7, h8, fun b p hb => ?_, h10⟩
  · rw [hl] at h3; simpa using h3
  · rw [hb] at h9; simpa using h9

/-- Only values of the Rust types are written, and no write fails. -/
def goodWrites (f : Feat) (tr : List (Event n)) : Bool :=
  tr.all fun e => match e with
    | .saved _ c => ckptOkB f c.toWire
    | .saveFailed _ _ => false
    | _ => true

theorem goodWrites_ok {f : Feat} {tr : List (Event n)} (h : goodWrites f tr = true) :
    (∀ it c, Event.saveFailed it c ∉ tr) ∧ ∀ s ∈ written tr, CkptOk f s.2.toWire := by
  unfold goodWrites at h
  rw [List.all_eq_true] at h
  refine ⟨fun it c hm => (by have := h _ hm; cases this), fun s hs => ?_⟩
  unfold written at hs
  rw [List.mem_filterMap] at hs
  obtain ⟨e, he, hs⟩ := hs
  cases e with
  | saved it c => cases hs; exact ckptOkB_sound (h _ he)
  | _ => cases hs

/-- A lifetime that ends after `k` events. -/
theorem Life.cut {m : Manager} {o : Opt n} {d : Dir} {env : Env n}
    {loaded : Option (Except CkErr (Ckpt n))} (hf : m.finds n d = some loaded) (k : Nat)
    (hg : goodWrites m.feat ((run env o loaded).final.trace.take k) = true) :
    Life m o d env ((run env o loaded).final.trace.take k)
      (m.after d ((run env o loaded).final.trace.take k)) :=
  ⟨⟨loaded, hf, List.take_prefix _ _⟩, (goodWrites_ok hg).1, (goodWrites_ok hg).2, List.Perm.refl _⟩

/-- The build with all features used for examples. -/
def oneFile : Manager := ⟨⟨true, true, true⟩, "run".toList, false⟩
def numbered : Manager := ⟨⟨true, true, true⟩, "run".toList, true⟩

theorem clean_empty (m : Manager) : Clean m [] := ⟨by simp [names], by simp [names], by simp [names]⟩

/-- A parallel run in batches of two that keeps one file. -/
def kept1 : Opt 1 := (demo.withCheckpointing ⟨"run", 1, false, true⟩).setBatch 2

theorem kept1_restarts : Restarts oneFile kept1 :=
  ⟨Built.batch 2 (Built.checkpointing _ demo_built), _, rfl, rfl, rfl⟩

/-- What is found at a restart after these events. -/
def foundAfter (tr : List (Event 1)) : Option (Except CkErr (Ckpt 1)) := (written tr).getLast?.map fun s => .ok s.2

/-- The first lifetime ends in the middle of the second batch, the next one after twelve events. -/
def firstLife : List (Event 1) := (run inOrder kept1 none).final.trace.take 10
def secondLife : List (Event 1) := (run inOrder kept1 (foundAfter firstLife)).final.trace.take 12

theorem two_lives : ∃ d, Lives oneFile kept1 [] [(inOrder, firstLife), (inOrder, secondLife)] d := by
  have h1 : Lives oneFile kept1 [] [(inOrder, firstLife)] (oneFile.after [] firstLife) :=
    Lives.next (h := []) .start (Life.cut (finds_none rfl) 10 (by decide +kernel))
  have hf := C93_single kept1_restarts rfl (clean_empty _) h1
  have e : (allWritten [(inOrder, firstLife)]).getLast?.map (fun s => (.ok s.2 : Except CkErr (Ckpt 1))) =
      foundAfter firstLife := by simp [allWritten, foundAfter]
  rw [e] at hf
  exact ⟨_, Lives.next (h := [(inOrder, firstLife)]) h1 (Life.cut hf 12 (by decide +kernel))⟩

example : ∃ d, Restarts oneFile kept1 ∧ Clean oneFile [] ∧
    Lives oneFile kept1 [] [(inOrder, firstLife), (inOrder, secondLife)] d ∧
    Follows oneFile kept1 [(inOrder, firstLife), (inOrder, secondLife)] ∧
    F64.le F64.zero kept1.absTol = true ∧
    (allWritten [(inOrder, firstLife), (inOrder, secondLife)]).map Prod.fst = [0, 1, 1, 2, 3] ∧
    (allWritten [(inOrder, firstLife), (inOrder, secondLife)]).map (fun s => s.2.solutionSet.map List.length) =
      [some 1, some 1, some 1, some 1, some 1] ∧
    succeeds (run inOrder kept1 (foundAfter (firstLife ++ secondLife))) = true := by
  obtain ⟨d, hd⟩ := two_lives
  exact ⟨d, kept1_restarts, clean_empty _, hd, (fun h => by cases h), by decide +kernel, by decide +kernel,
    by decide +kernel, by decide +kernel⟩

/-- A sequential run with numbered files, interrupted after nine events. -/
example : Restarts numbered stepped ∧ stepped.seqConfigured ∧ Polite inOrder ∧
    Lives numbered stepped [] [(inOrder, (run inOrder stepped none).final.trace.take 9)]
      (numbered.after [] ((run inOrder stepped none).final.trace.take 9)) ∧
    (allWritten [(inOrder, (run inOrder stepped none).final.trace.take 9)]).map Prod.fst = [0, 1] :=
  ⟨⟨Built.parallel false batched_built, _, rfl, rfl, rfl⟩, Or.inl rfl, fun _ _ _ => ⟨rfl, rfl⟩,
    Lives.next (h := []) .start (Life.cut (finds_none (by decide +kernel)) 9 (by decide +kernel)), by decide +kernel⟩

/-! ### Parallel runs with numbered files -/

/-- The checkpoint written last and the one with the highest number, `k`. -/
def overtaken (k : Nat) (tr : List (Event 1)) : Bool :=
  match (written tr).getLast?, outcomeOf (run inOrder batched none) with
  | some (i, c), some set =>
    decide (i < k) && decide (c.solutionSet = some set) && (written tr).all fun s => decide (s.1 ≤ k)
  | _, _ => false

theorem overtaken_some {k : Nat} {tr : List (Event 1)} (h : overtaken k tr = true) :
    ∃ i c set, (written tr).getLast? = some (i, c) ∧ i < k ∧ outcomeOf (run inOrder batched none) = some set ∧
      c.solutionSet = some set ∧ ∀ s ∈ written tr, s.1 ≤ k := by
  unfold overtaken at h
  split at h
  · rename_i i c set h1 h2
    simp only [Bool.and_eq_true, decide_eq_true_eq, List.all_eq_true] at h
    exact ⟨i, c, set, h1, h.1.1, h2, h.1.2, h.2⟩
  · cases h

theorem number_of (env : Env n) {o : Opt n} (hb : Built o) {s : Nat × Ckpt n}
    (hs : s ∈ written (run env o none).final.trace) : s.2.currentIteration = s.1 := by
  have hst : startOpt env o none = .ok (started env o, false) := by
    show (started env o).tryResume none = _
    unfold Opt.tryResume
    cases (started env o).ckpt with
    | none => rfl
    | some cfg => dsimp only; cases cfg.autoResume <;> rfl
  unfold written at hs
  rw [List.mem_filterMap] at hs
  obtain ⟨e, he, hs⟩ := hs
  cases e with
  | saved it c =>
    cases hs
    obtain ⟨a, b, hab⟩ := List.append_of_mem he
    exact (C49_contents (pre := a) (post := b) hst (by
      rw [show (started env o).solset = o.solset from rfl, hb.unused.solset]; simp) hab).1
  | _ => cases hs

/-- C93 and C94 do not hold for parallel runs with `keep_all`.  In this run, which nothing interrupts, the
last checkpoints have the number 2 and hold the solution that the run returns; the one of iteration 3 was
written before them, without it.  A restart finds the latter, and returns a worse solution than the first
run. -/
theorem C93_violated : ∃ (e : Env 1) (o : Opt 1) (m : Manager) (d : Dir) (i : Nat) (c last : Ckpt 1)
    (s s' : Sol 1), Restarts m o ∧ m.keepAll = true ∧ Clean m [] ∧ Polite e ∧
    Lives m o [] [(e, (run e o none).final.trace)] d ∧
    (allWritten [(e, (run e o none).final.trace)]).getLast? = some (i, last) ∧ 0 < i ∧
    outcomeOf (run e o none) = some [s] ∧ last.solutionSet = some [s] ∧
    m.finds 1 d = some (some (.ok c)) ∧ c ≠ last ∧
    outcomeOf (run e o (some (.ok c))) = some [s'] ∧ F64.lt s.objective s'.objective = true := by
  have h : (cutAt 3 (run inOrder batched none).final.trace).isSome = true := by decide +kernel
  have hf : ∀ x, cutAt 3 (run inOrder batched none).final.trace = some x →
      (lost x).isSome = true := by
    intro x hx
    have : ((cutAt 3 (run inOrder batched none).final.trace).bind lost).isSome = true := by decide +kernel
    rw [hx] at this
    exact this
  obtain ⟨⟨pre, c, post⟩, hx⟩ := Option.isSome_iff_exists.1 h
  obtain ⟨⟨p, s, s'⟩, hl⟩ := Option.isSome_iff_exists.1 (hf _ hx)
  obtain ⟨_, h2, h3, h4, _⟩ := lost_some hl
  obtain ⟨i, last, set, g1, g2, g3, g4, g5⟩ := overtaken_some
    (k := 3) (tr := (run inOrder batched none).final.trace) (by decide +kernel)
  have hg : goodWrites numbered.feat (run inOrder batched none).final.trace = true := by decide +kernel
  have hpos : (written (run inOrder batched none).final.trace).getLast?.map (fun s => decide (0 < s.1)) =
    some true := by decide +kernel
  have hpost : (cutAt 3 (run inOrder batched none).final.trace).map (fun x => (written x.2.2).all fun s =>
      decide (s.1 ≠ 3)) = some true := by decide +kernel
  have hcut := cutAt_some hx
  rw [hx] at hpost
  have hpost : ∀ s ∈ written post, s.1 ≠ 3 := by simpa using hpost
  rw [g1] at hpos
  have hpos : 0 < i := by simpa using hpos
  rw [h2] at g3
  cases g3
  generalize htr : (run inOrder batched none).final.trace = tr at *
  have hwr : (written tr).map (fun s => (s.1, s.2.toWire)) =
      (written pre).map (fun s => (s.1, s.2.toWire)) ++ (3, c.toWire) ::
        (written post).map (fun s => (s.1, s.2.toWire)) := by
    rw [hcut, written_append, List.map_append]; rfl
  have hok := (goodWrites_ok hg).2
  have hc3 : (3, c) ∈ written tr := by rw [hcut, written_append]; simp [written]
  have hcOk := hok _ hc3
  have hall : ∀ x ∈ (written tr).map (fun s => (s.1, s.2.toWire)), x.1 ≤ 3 := by
    intro x hx
    obtain ⟨w, hw, rfl⟩ := List.mem_map.1 hx
    exact g5 w hw
  obtain ⟨l1, l2⟩ := C42_keep_all_partial numbered rfl [] (numbered.after [] tr) (by simp [names])
    (by simp [names]) ((written pre).map fun s => (s.1, s.2.toWire))
    ((written post).map fun s => (s.1, s.2.toWire)) 3 c.toWire
    (fun x hx => by rw [← hwr] at hx; have := hall x hx; omega) hcOk
    (by rw [after_eq, hwr]) (by omega) (fun x hx => by rw [← hwr] at hx; exact hall x hx)
    (fun x hx => by obtain ⟨w, hw, rfl⟩ := List.mem_map.1 hx; exact hpost w hw)
  refine ⟨inOrder, batched, numbered, numbered.after [] tr, i, c, last, s, s',
    ⟨batched_built, _, rfl, rfl, rfl⟩, rfl, clean_empty _, fun _ _ _ => ⟨rfl, rfl⟩, ?_, ?_, hpos, h2, g4,
    finds_of_load hcOk l2 l1, ?_, h3, h4⟩
  · rw [htr]
    exact Lives.next (h := []) .start ⟨⟨none, finds_none (by decide +kernel), by rw [htr]⟩,
      (goodWrites_ok hg).1, hok, List.Perm.refl _⟩
  · rw [htr]
    simpa [allWritten] using g1
  · rintro rfl
    have q1 := number_of inOrder batched_built (by rw [htr]; exact hc3)
    have q2 := number_of inOrder batched_built (by rw [htr]; exact List.mem_of_getLast? g1)
    dsimp only at q1 q2
    omega

/-- C94 does not hold for parallel runs with `keep_all`: the best solution of the last checkpoint is lost. -/
theorem C94_violated : ∃ (e : Env 1) (o : Opt 1) (m : Manager) (d : Dir) (h : List (Env 1 × List (Event 1)))
    (i : Nat) (last : Ckpt 1) (s s' : Sol 1) (loaded : Option (Except CkErr (Ckpt 1))),
    Restarts m o ∧ m.keepAll = true ∧ Clean m [] ∧ Polite e ∧ Lives m o [] h d ∧
    (i, last) ∈ allWritten h ∧ 0 < i ∧ last.solutionSet = some [s] ∧ m.finds 1 d = some loaded ∧
    (run e o loaded).result = .ok [s'] ∧ F64.lt s.objective s'.objective = true := by
  obtain ⟨e, o, m, d, i, c, last, s, s', h1, h2, h3, h4, h5, h6, h7, h8, h9, h10, h11, h12, h13⟩ := C93_violated
  refine ⟨e, o, m, d, _, i, last, s, s', _, h1, h2, h3, h4, h5, List.mem_of_getLast? h6, h7, h9, h10, ?_, h13⟩
  unfold outcomeOf at h12
  split at h12
  · rename_i heq
    cases h12; exact heq
  · cases h12

end GS.Props
