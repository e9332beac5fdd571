/- C101: the reference set and the seed in checkpoints. -/
import Verif.Lemmas.RefSet
import Verif.Props.Onward
import Verif.Props.Restart

namespace GS.Props
open GS F64 GS.Witness Manager Dir
variable {n : Nat}

theorem lasting_ref (env : Env n) (ref : List (Pt n)) : Lasting env fun o : Opt n => o.curRef = some ref where
  obs _ _ h := h
  merit _ _ h := h
  process o s h := by
    unfold Opt.process
    dsimp only
    split
    · exact h
    · dsimp only [Opt.mapObs]; repeat' split
      all_goals exact h
  begin _ _ _ _ _ h := h

/-- The seed of an iteration is the configured one plus the number of the iteration, wrapping around. -/
def seedOf (seed i : Nat) : Nat := (seed + i) % 2 ^ 64

theorem addU64_seed {b : Bool} {s i sd : Nat} (h : Opt.addU64 b s i = some sd) : sd = seedOf s i := by
  unfold Opt.addU64 at h
  unfold seedOf
  split at h
  · cases h; rw [Nat.mod_eq_of_lt (by assumption)]
  · split at h <;> cases h; rfl

theorem lasting_seed (env : Env n) (p : Params) :
    Lasting env fun o : Opt n => o.params = p ∧ o.curSeed = seedOf p.seed o.curIter where
  obs _ _ h := h
  merit _ _ h := h
  process o s h := by
    unfold Opt.process
    dsimp only
    split
    · exact h
    · dsimp only [Opt.mapObs]; repeat' split
      all_goals exact h
  begin o it uc sd hs h := by
    refine ⟨h.1, ?_⟩
    rw [h.1] at hs
    exact addU64_seed hs

theorem none_saved : NoneSaved ([] : List (Event n)) := by
  intro it c h
  simp at h

/-- C101, fresh runs of every mode, successful or not: every checkpoint written contains exactly the points of
the reference set of stage 1, in the order in which it was generated.  Stage 2 examines the points of
a rearrangement of the stored set. -/
theorem C101_fresh {env : Env n} {o : Opt n} {loaded : Option (Except CkErr (Ckpt n))} (hb : Built o)
    (hf : Fresh o loaded) {it : Nat} {c : Ckpt n} (h : .saved it c ∈ (run env o loaded).final.trace) :
    (∃ sc, Act.scatter env o = .ok sc ∧ c.referenceSet = sc.ref.map Prod.fst) ∧
    (examined (run env o loaded).final.trace = [] ∨
      ∃ sd, Opt.shuffleSeed env o.params.seed 0 = some sd ∧
        (examined (run env o loaded).final.trace).map Prod.snd <+:
          (env.rt.shuffle sd c.referenceSet).take o.params.iterations) := by
  have h1 : ∃ sc, Act.scatter env o = .ok sc ∧ c.referenceSet = sc.ref.map Prod.fst := by
    rw [run_fresh env o loaded hf, finish_final] at h
    cases hs : Act.scatter env o with
    | error e =>
      exfalso
      have hm : MadeFrom (fun _ => False) (Act.body env false ⟨started env o, 0, 0, []⟩).1.trace := by
        unfold Act.body
        rw [if_neg (by simp)]
        unfold Act.stage1
        rw [show Act.scatter env (⟨started env o, 0, 0, []⟩ : M n).opt = .error e from hs]
        exact none_saved
      obtain ⟨_, _, h, _⟩ := hm it c (Or.inl h)
      exact h
    | ok sc =>
      refine ⟨sc, rfl, ?_⟩
      obtain ⟨o', st, k1, -, rfl⟩ := body_made (lasting_ref env (sc.ref.map Prod.fst)) ⟨started env o, 0, 0, []⟩
        none_saved (fun o' sd sc' e1 _ e2 _ => by
          rw [show Act.scatter env (⟨started env o, 0, 0, []⟩ : M n).opt = .ok sc from hs] at e1
          cases e1
          exact e2) it c (Or.inl h)
      show o'.curRef.getD [] = _
      rw [k1]; rfl
  refine ⟨h1, ?_⟩
  obtain ⟨sc, hs, hr⟩ := h1
  rcases C95_examined_in_order (env := env) hb hf with h2 | ⟨sc', sd, k, e1, e2, e3, _⟩
  · exact Or.inl h2
  · right
    rw [hs] at e1
    cases e1
    refine ⟨sd, e2, ?_⟩
    rw [e3, hr]
    exact List.take_prefix _ _

/-- C101, resumed runs of every mode: the reference set is handed on unchanged. -/
theorem C101_resumed {env : Env n} {o : Opt n} {loaded : Option (Except CkErr (Ckpt n))} {c0 : Ckpt n}
    (hr : Resumes o loaded c0) {it : Nat} {c : Ckpt n} (h : .saved it c ∈ (run env o loaded).final.trace) :
    c.referenceSet = c0.referenceSet := by
  rw [run_resumes env o loaded hr, finish_final] at h
  obtain ⟨o', st, k1, -, rfl⟩ := resumed_made (lasting_ref env c0.referenceSet) _ none_saved rfl it c (Or.inl h)
  show o'.curRef.getD [] = _
  rw [k1]; rfl

/-- C101, seed: in builds with checkpoints every checkpoint holds the seed of its iteration. -/
theorem C101_seed {env : Env n} {o : Opt n} {loaded : Option (Except CkErr (Ckpt n))} (hf : Fresh o loaded)
    (hck : env.checkpointing = true) {it : Nat} {c : Ckpt n}
    (h : .saved it c ∈ (run env o loaded).final.trace) : c.currentSeed = (o.params.seed + it) % 2 ^ 64 := by
  rw [run_fresh env o loaded hf, finish_final] at h
  obtain ⟨o', st, ⟨k1, k2⟩, k3, rfl⟩ := body_made (lasting_seed env o.params) ⟨started env o, 0, 0, []⟩
    none_saved (fun o' sd sc' _ e1 _ e2 => by
      have : o'.params = o.params := e1.params
      refine ⟨this, ?_⟩
      unfold Opt.shuffleSeed at e2
      rw [if_pos hck, this] at e2
      exact addU64_seed e2) it c (Or.inl h)
  show o'.curSeed = _
  rw [k2, k3]; rfl

/-- C101, seed, resumed runs. -/
theorem C101_seed_resumed {env : Env n} {o : Opt n} {loaded : Option (Except CkErr (Ckpt n))} {c0 : Ckpt n}
    (hr : Resumes o loaded c0) (h0 : c0.currentSeed = (c0.params.seed + c0.currentIteration) % 2 ^ 64)
    {it : Nat} {c : Ckpt n} (h : .saved it c ∈ (run env o loaded).final.trace) :
    c.currentSeed = (c0.params.seed + it) % 2 ^ 64 := by
  rw [run_resumes env o loaded hr, finish_final] at h
  obtain ⟨o', st, ⟨k1, k2⟩, k3, rfl⟩ := resumed_made (lasting_seed env c0.params) _ none_saved ⟨rfl, h0⟩ it c
    (Or.inl h)
  show o'.curSeed = _
  rw [k2, k3]; rfl

/-- C101, any number of interruptions and restarts, in every mode: all checkpoints that restarts take into
account hold the same reference set. -/
theorem C101_lives {m : Manager} {o : Opt n} {d0 d : Dir} (hr : Restarts m o) (hc : Clean m d0)
    {h : List (Env n × List (Event n))} (hmode : Follows m o h) (hl : Lives m o d0 h d) {x y : Nat × Ckpt n}
    (hx : x ∈ allWritten h) (hy : y ∈ allWritten h) (ix : m.keepAll = true → 0 < x.1)
    (iy : m.keepAll = true → 0 < y.1) : x.2.referenceSet = y.2.referenceSet := by
  have key : ∀ z ∈ allWritten h, (m.keepAll = true → 0 < z.1) →
      ∃ s, m.lastIn (h.map Prod.snd).flatten = some s ∧ z.2.referenceSet = s.2.referenceSet := by
    clear hx hy ix iy
    induction hl with
    | start => intro z hz; simp [allWritten, written] at hz
    | @next h d env tr d' hl hlife ih =>
      have hm' : Follows m o h := fun hk => ⟨(hmode hk).1, fun x hx => (hmode hk).2 x (by simp [hx])⟩
      have hi := LifeInv.all hr hc.nodup hc.single hc.numbered hm' hl
      have ih := ih hm'
      obtain ⟨⟨loaded, hfind, htr⟩, -, -, -⟩ := hlife
      rw [hi.found] at hfind
      cases hfind
      have hw : allWritten (h ++ [(env, tr)]) = allWritten h ++ written tr := by
        simp [allWritten, written_append, List.flatten_append]
      have hlast : m.lastIn ((h ++ [(env, tr)]).map Prod.snd).flatten =
          (m.lastIn tr).or (m.lastIn (h.map Prod.snd).flatten) := by
        rw [List.map_append, List.flatten_append, lastIn_append]
        simp
      have hmem : ∀ z ∈ written tr, .saved z.1 z.2 ∈ (run env o
          ((m.lastIn (h.map Prod.snd).flatten).map fun s => .ok s.2)).final.trace := by
        intro z hz
        unfold written at hz
        obtain ⟨e, he, hz⟩ := List.mem_filterMap.1 hz
        cases e with
        | saved i c => cases hz; exact htr.subset he
        | _ => cases hz
      -- all checkpoints of this lifetime hold the same set, the one of the checkpoint it started from
      obtain ⟨cfg, hcfg, hauto, -⟩ := hr.config
      have same : ∀ z ∈ written tr, ∀ w ∈ written tr, z.2.referenceSet = w.2.referenceSet := by
        intro z hz w hw
        cases hs : m.lastIn (h.map Prod.snd).flatten with
        | none =>
          have a := (C101_fresh hr.built (Or.inl rfl) (by have := hmem z hz; rw [hs] at this; exact this)).1
          have b := (C101_fresh hr.built (Or.inl rfl) (by have := hmem w hw; rw [hs] at this; exact this)).1
          obtain ⟨sc, a1, a2⟩ := a
          obtain ⟨sc', b1, b2⟩ := b
          rw [a1] at b1
          cases b1
          rw [a2, b2]
        | some s =>
          have a := C101_resumed (c0 := s.2) ⟨rfl, cfg, hcfg, hauto⟩ (by
            have := hmem z hz; rw [hs] at this; exact this)
          have b := C101_resumed (c0 := s.2) ⟨rfl, cfg, hcfg, hauto⟩ (by
            have := hmem w hw; rw [hs] at this; exact this)
          rw [a, b]
      have cont : ∀ s, m.lastIn (h.map Prod.snd).flatten = some s → ∀ z ∈ written tr,
          z.2.referenceSet = s.2.referenceSet := by
        intro s hs z hz
        exact C101_resumed (c0 := s.2) ⟨rfl, cfg, hcfg, hauto⟩ (by
          have := hmem z hz; rw [hs] at this; exact this)
      have hin : ∀ s, m.lastIn tr = some s → s ∈ written tr := by
        intro s hs
        unfold Manager.lastIn at hs
        exact (List.mem_filter.1 (List.mem_of_getLast? hs)).1
      intro z hz hiz
      rw [hlast]
      rw [hw] at hz
      rcases List.mem_append.1 hz with hz | hz
      · obtain ⟨s, hs, e⟩ := ih z hz hiz
        cases ht : m.lastIn tr with
        | none => exact ⟨s, hs, e⟩
        | some t => exact ⟨t, rfl, by rw [e, cont s hs t (hin t ht)]⟩
      · cases ht : m.lastIn tr with
        | none =>
          exfalso
          have hcount : m.counts z.1 = true := by
            unfold Manager.counts
            cases hk : m.keepAll with
            | false => rfl
            | true => simpa using hiz hk
          unfold Manager.lastIn at ht
          rw [List.getLast?_eq_none_iff, List.filter_eq_nil_iff] at ht
          exact ht z hz hcount
        | some t => exact ⟨t, rfl, same z hz t (hin t ht)⟩
  obtain ⟨s, hs, e⟩ := key x hx ix
  obtain ⟨s', hs', e'⟩ := key y hy iy
  rw [hs] at hs'
  cases hs'
  rw [e, e']

/-- The hypotheses hold for a parallel run in a build with checkpoints, which writes several checkpoints
with different seeds, and for each run resumed from one of them. -/
example : Built wideSaving ∧ Fresh wideSaving none ∧ wideEnv.checkpointing = true ∧
    (written (run wideEnv wideSaving none).final.trace).map (fun s => (s.1, s.2.currentSeed)) =
      [(1, 1), (0, 0), (2, 2), (3, 3), (4, 4), (5, 5), (5, 5)] ∧
    ∀ c ∈ savedIn (run wideEnv wideSaving none).final.trace, Resumes wideSaving (some (.ok c)) c ∧
      (c.currentSeed = (c.params.seed + c.currentIteration) % 2 ^ 64 ∧
        savedIn (run wideEnv wideSaving (some (.ok c))).final.trace ≠ []) :=
  ⟨Built.checkpointing _ (Built.batch 2 (mk_built wide_ok)), Or.inl rfl, rfl, by decide +kernel,
    fun c hc => ⟨⟨rfl, _, rfl, rfl⟩, by revert c; decide +kernel⟩⟩

/-- The hypotheses of `C101_lives` hold for a parallel run that is interrupted, started again and interrupted
again. -/
example : ∃ d, Restarts oneFile kept1 ∧ Clean oneFile [] ∧
    Lives oneFile kept1 [] [(inOrder, firstLife), (inOrder, secondLife)] d ∧
    Follows oneFile kept1 [(inOrder, firstLife), (inOrder, secondLife)] ∧
    (allWritten [(inOrder, firstLife), (inOrder, secondLife)]).map (fun s => s.2.referenceSet.length) =
      [6, 6, 6, 6, 6] := by
  obtain ⟨d, hd⟩ := two_lives
  exact ⟨d, kept1_restarts, clean_empty _, hd, (fun h => by cases h), by decide +kernel⟩

end GS.Props
