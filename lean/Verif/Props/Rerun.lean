/- C90, C91: running the same optimizer several times. -/
import Verif.Props.Features
import Verif.Lemmas.AllLoop
import Verif.Props.Kept
import Verif.Props.Stage2

namespace GS.Props
open GS F64
variable {n : Nat}

/-- What a run meets: everything outside the optimizer, and what the checkpoint directory holds. -/
abbrev Meets (n : Nat) := Env n × Option (Except CkErr (Ckpt n))

/-- The optimizer after several calls of `run`, one after another, whatever each of them returned. -/
def afterRuns (o : Opt n) : List (Meets n) → Opt n
  | [] => o
  | e :: l => afterRuns (run e.1 o e.2).final.opt l

/-- All local solutions processed during these runs, in order. -/
def foundBy (o : Opt n) : List (Meets n) → List (Sol n)
  | [] => []
  | e :: l => processedBy e.1 o e.2 ++ foundBy (run e.1 o e.2).final.opt l

theorem afterRuns_append (o : Opt n) (a b : List (Meets n)) :
    afterRuns o (a ++ b) = afterRuns (afterRuns o a) b := by
  induction a generalizing o with
  | nil => rfl
  | cons e l ih => exact ih _

theorem foundBy_append (o : Opt n) (a b : List (Meets n)) :
    foundBy o (a ++ b) = foundBy o a ++ foundBy (afterRuns o a) b := by
  induction a generalizing o with
  | nil => rfl
  | cons e l ih => rw [List.cons_append, foundBy, ih, foundBy, List.append_assoc]; rfl

theorem fresh_hist {e : Meets n} {o : Opt n} (hne : o.solset ≠ some []) (hf : Fresh o e.2) :
    SameCfg o (run e.1 o e.2).final.opt ∧
      (run e.1 o e.2).final.opt.solset = setFold o.setCfg o.solset (processedBy e.1 o e.2) ∧
      (run e.1 o e.2).final.opt.dist.solutions = o.dist.solutions ++ processedBy e.1 o e.2 ∧
      ∀ s ∈ processedBy e.1 o e.2, ∃ it p, Event.search it p (.ok s) ∈ (run e.1 o e.2).final.trace := by
  unfold processedBy
  rw [run_fresh e.1 o e.2 hf, finish_final]
  have hi := histInv (o := started e.1 o) hne (Steps.body e.1 false ⟨started e.1 o, 0, 0, []⟩)
  exact ⟨SameCfg.trans (by constructor <;> rfl) hi.cfg, hi.solset, hi.dist, hi.inset⟩

/-- The runs are fresh: no checkpoint is found, or automatic resuming is off. -/
def AllFresh (o : Opt n) (l : List (Meets n)) : Prop := ∀ e ∈ l, Fresh o e.2

theorem fresh_cfg {o o' : Opt n} {x : Option (Except CkErr (Ckpt n))} (h : SameCfg o o') (hf : Fresh o x) :
    Fresh o' x := by
  unfold Fresh at *
  rw [h.ckpt]; exact hf

theorem runs_hist {o : Opt n} (l : List (Meets n)) (hne : o.solset ≠ some []) (hf : AllFresh o l) :
    SameCfg o (afterRuns o l) ∧
      (afterRuns o l).solset = setFold o.setCfg o.solset (foundBy o l) ∧
      (afterRuns o l).dist.solutions = o.dist.solutions ++ foundBy o l := by
  induction l generalizing o with
  | nil => exact ⟨SameCfg.refl o, rfl, by simp [afterRuns, foundBy]⟩
  | cons e l ih =>
    obtain ⟨h1, h2, h3, _⟩ := fresh_hist (e := e) hne (hf e (by simp))
    have hne' : (run e.1 o e.2).final.opt.solset ≠ some [] := by
      rw [h2]; exact setFold_ne_nil _ hne
    obtain ⟨i1, i2, i3⟩ := ih hne' fun x hx => fresh_cfg h1 (hf x (by simp [hx]))
    refine ⟨h1.trans i1, ?_, ?_⟩
    · show (afterRuns (run e.1 o e.2).final.opt l).solset = _
      rw [i2, h1.setCfg, h2, foundBy, setFold_append]
    · show (afterRuns (run e.1 o e.2).final.opt l).dist.solutions = _
      rw [i3, h3, foundBy, List.append_assoc]

theorem run_ok_solset {e : Meets n} {o : Opt n} {set : List (Sol n)}
    (h : (run e.1 o e.2).result = .ok set) : (run e.1 o e.2).final.opt.solset = some set := (run_ok h).1

/-! ### C90: nothing found is lost -/

/-- C90: whatever the earlier runs returned, the set a further run returns is what processing the local
solutions of all runs one after another gives, as in a single run; it has the properties proved for the
set of a single run (C02, C03, C87). -/
theorem C90_all_runs {o : Opt n} (hb : Built o) (l : List (Meets n)) (e : Meets n)
    (hf : AllFresh o (l ++ [e])) {set : List (Sol n)}
    (h : (run e.1 (afterRuns o l) e.2).result = .ok set) :
    (afterAll o (foundBy o (l ++ [e]))).solset = some set ∧
      GoodSet o.absTol o.relTol o.params.distanceFactor set ∧
      Explains (admissible o) o.absTol o.relTol o.params.distanceFactor (foundBy o (l ++ [e])) set := by
  have hn := hb.unused.solset
  obtain ⟨_, h2, _⟩ := runs_hist (l ++ [e]) (by rw [hn]; simp) hf
  have h3 : (afterRuns o (l ++ [e])).solset = some set := by
    rw [afterRuns_append]; exact run_ok_solset h
  rw [h3] at h2
  refine ⟨by rw [afterAll_solset]; exact h2.symm, ?_⟩
  rw [hn] at h2
  exact ⟨goodSet_fold (c := o.setCfg) _ (by simp) set h2.symm, (explains_fold o.setCfg _).2 set h2.symm⟩

/-- C90: the first member never gets worse from run to run, and a set once there is never lost, even if
the later runs fail. -/
theorem C90_first_member {o : Opt n} (hb : Built o) (l more : List (Meets n)) (e : Meets n)
    (hf : AllFresh o (l ++ e :: more)) (ha : F64.le F64.zero o.absTol = true) {set : List (Sol n)} {hd : Sol n}
    (h : (run e.1 (afterRuns o l) e.2).result = .ok set) (hh : set.head? = some hd) :
    ∃ set' hd', (afterRuns o (l ++ e :: more)).solset = some set' ∧ set'.head? = some hd' ∧
      (hd' = hd ∨ F64.lt hd'.objective hd.objective = true) := by
  have hn := hb.unused.solset
  have hsp : l ++ e :: more = (l ++ [e]) ++ more := by simp
  rw [hsp] at hf ⊢
  obtain ⟨_, h1, _⟩ := runs_hist (l ++ [e]) (by rw [hn]; simp) fun x hx => hf x (List.mem_append_left _ hx)
  obtain ⟨_, h2, _⟩ := runs_hist (l ++ [e] ++ more) (by rw [hn]; simp) hf
  have h3 : (afterRuns o (l ++ [e])).solset = some set := by
    rw [afterRuns_append]; exact run_ok_solset h
  rw [h3, ← afterAll_solset] at h1
  obtain ⟨set', hd', k1, k2, k3⟩ := C06_history o (foundBy o (l ++ [e])) (foundBy (afterRuns o (l ++ [e])) more)
    set hd ha h1.symm hh
  refine ⟨set', hd', ?_, k2, k3⟩
  rw [h2, ← afterAll_solset, foundBy_append, k1]

/-- C90: every solution ever processed is one a local search of one of the runs returned. -/
theorem C90_members {o : Opt n} (hb : Built o) (l : List (Meets n)) (hf : AllFresh o l) :
    ∀ s ∈ foundBy o l, ∃ e ∈ l, ∃ p k, e.1.solve o.params.solverType o.params.solverConfig p = .ok (s, k) := by
  have key : ∀ (l : List (Meets n)) (o' : Opt n), SameCfg o o' → o'.solset ≠ some [] → AllFresh o' l →
      ∀ s ∈ foundBy o' l, ∃ e ∈ l, ∃ p k,
        e.1.solve o.params.solverType o.params.solverConfig p = .ok (s, k) := by
    intro l
    induction l with
    | nil => intro o' _ _ _ s hs; cases hs
    | cons e l ih =>
      intro o' hc hne hf s hs
      obtain ⟨h1, h2, _, h4⟩ := fresh_hist (e := e) hne (hf e (by simp))
      rcases List.mem_append.1 hs with hs | hs
      · obtain ⟨it, p, hm⟩ := h4 s hs
        rw [run_fresh e.1 o' e.2 (hf e (by simp)), finish_final] at hm
        have hg : Except.ok s = (e.1.solve o'.lsType o'.lsConfig p).map Prod.fst ∨
            Except.ok s = (e.1.solve o'.params.solverType o'.params.solverConfig p).map Prod.fst :=
          (Steps.body e.1 false ⟨started e.1 o', 0, 0, []⟩).genuine _ hm
        rw [hc.lsType, hc.lsConfig, hc.params, hb.unused.lsType, hb.unused.lsConfig, or_self] at hg
        refine ⟨e, by simp, p, ?_⟩
        cases hx : e.1.solve o.params.solverType o.params.solverConfig p with
        | error e => rw [hx] at hg; cases hg
        | ok r => rw [hx] at hg; cases hg; exact ⟨r.2, rfl⟩
      · have hne' : (run e.1 o' e.2).final.opt.solset ≠ some [] := by
          rw [h2]; exact setFold_ne_nil _ hne
        obtain ⟨e', he', hp⟩ := ih _ (hc.trans h1) hne' (fun x hx => fresh_cfg h1 (hf x (by simp [hx]))) s hs
        exact ⟨e', by simp [he'], hp⟩
  exact key l o (SameCfg.refl o) (by rw [hb.unused.solset]; simp) hf

/-! ### C91: a further run examines the same points -/

theorem scatter_cfg {env : Env n} {o o' : Opt n} (h : SameCfg o o') :
    Act.scatter env o' = Act.scatter env o := by
  unfold Act.scatter
  rw [h.problem, h.params, h.par, h.custom]

theorem rerun_shape {env : Env n} {o o' : Opt n} {x : Option (Except CkErr (Ckpt n))} (hc : SameCfg o o')
    (hne : o'.solset ≠ some []) (hf : Fresh o' x) :
    examined (run env o' x).final.trace = [] ∨
      ∃ sc sd k, Act.scatter env o = .ok sc ∧ Opt.shuffleSeed env o.params.seed o'.curIter = some sd ∧
        examined (run env o' x).final.trace =
          (Act.items o.params.iterations 0 (env.rt.shuffle sd (sc.ref.map Prod.fst))).take k := by
  rw [run_fresh env o' x hf, finish_final]
  have h := fresh_post' (o := started env o') env hne
  rcases h.shape with ⟨h, _⟩ | ⟨sc, sd, hsc, hsd, _, ⟨k, hk⟩, _⟩
  · exact Or.inl h
  · right
    have hc' : SameCfg o (started env o') := hc.trans (by constructor <;> rfl)
    rw [scatter_cfg hc'] at hsc
    rw [hc'.params] at hsd hk
    exact ⟨sc, sd, k, hsc, hsd, hk⟩

/-- C91 (partial: builds without the feature `checkpointing`): in the same environment, any two runs of the
optimizer, sequential or parallel, examine the same points under the same numbers, except that one of them
may stop earlier. -/
theorem C91_same_points_partial {env : Env n} {o : Opt n} (hb : Built o)
    (hck : env.checkpointing = false) (l l' : List (Meets n)) (x x' : Option (Except CkErr (Ckpt n)))
    (hf : AllFresh o (l ++ [(env, x)])) (hf' : AllFresh o (l' ++ [(env, x')])) :
    examined (run env (afterRuns o l) x).final.trace <+: examined (run env (afterRuns o l') x').final.trace ∨
    examined (run env (afterRuns o l') x').final.trace <+: examined (run env (afterRuns o l) x).final.trace := by
  have hne : o.solset ≠ some [] := by rw [hb.unused.solset]; simp
  have key : ∀ (l : List (Meets n)) (x : Option (Except CkErr (Ckpt n))), AllFresh o (l ++ [(env, x)]) →
      examined (run env (afterRuns o l) x).final.trace = [] ∨
      ∃ sc k, Act.scatter env o = .ok sc ∧ examined (run env (afterRuns o l) x).final.trace =
        (Act.items o.params.iterations 0 (env.rt.shuffle o.params.seed (sc.ref.map Prod.fst))).take k := by
    intro l x hf
    obtain ⟨h1, h2, _⟩ := runs_hist l hne fun e he => hf e (List.mem_append_left _ he)
    have hn2 : (afterRuns o l).solset ≠ some [] := by rw [h2]; exact setFold_ne_nil _ hne
    rcases rerun_shape (x := x) h1 hn2 (fresh_cfg h1 (hf (env, x) (by simp))) with h | ⟨sc, sd, k, i1, i2, i3⟩
    · exact Or.inl h
    · unfold Opt.shuffleSeed at i2
      rw [hck] at i2
      injection i2 with i2
      subst i2
      exact Or.inr ⟨sc, k, i1, i3⟩
  rcases key l x hf with h | ⟨sc, k, h1, h2⟩
  · rw [h]; exact Or.inl List.nil_prefix
  · rcases key l' x' hf' with h | ⟨sc', k', h1', h2'⟩
    · rw [h]; exact Or.inr List.nil_prefix
    · rw [h1] at h1'
      cases h1'
      rw [h2, h2']
      rcases Nat.le_total k k' with hk | hk
      · exact Or.inl (List.take_prefix_take_left hk)
      · exact Or.inr (List.take_prefix_take_left hk)

open Witness

/-- Shuffling that depends on the seed. -/
def turning : Env 1 := { env stay with
  rt := { rt 1 with shuffle := fun s l => if s % 2 = 0 then l else l.reverse } }

/-- C91 does not hold in builds with the feature `checkpointing`, even if it is not configured: the second
run shuffles with another seed and examines the same points in another order. -/
theorem C91_violated : ∃ (e : Env 1) (o : Opt 1), Built o ∧ Sequential e o 0 ∧ o.ckpt = none ∧
    e.checkpointing = true ∧ o.params.seed + o.params.iterations < 2 ^ 64 ∧
    ¬ examined (run e (afterRuns o []) none).final.trace <+:
        examined (run e (afterRuns o [(e, none)]) none).final.trace ∧
    ¬ examined (run e (afterRuns o [(e, none)]) none).final.trace <+:
        examined (run e (afterRuns o []) none).final.trace := by
  refine ⟨turning, demoSeq, demoSeq_built, Or.inl rfl, by decide +kernel, rfl, by decide +kernel, ?_⟩
  decide +kernel

/-- Two runs of an optimizer both return solutions: the hypotheses of C90 and C91 are met. -/
example : Built demoSeq ∧ AllFresh demoSeq ([(env stay, none)] ++ [(env stay, none)]) ∧
    F64.le F64.zero demoSeq.absTol = true ∧
    succeeds (run (env stay) (afterRuns demoSeq []) none) = true ∧
    succeeds (run (env stay) (afterRuns demoSeq [(env stay, none)]) none) = true ∧
    (examined (run { env stay with checkpointing := false } demoSeq none).final.trace).length = 4 ∧
    (examined (run { env stay with checkpointing := false } (demo.setBatch 3) none).final.trace).length = 4 :=
  ⟨demoSeq_built, fun e he => Or.inl (by simp_all), by decide +kernel, by decide +kernel, by decide +kernel,
    by decide +kernel, by decide +kernel⟩

end GS.Props
