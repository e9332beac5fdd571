/- Properties C31 and C32: what `run` returns and how much work it does. -/
import Verif.Lemmas.Blame
import Verif.Lemmas.RecordPar
import Verif.Lemmas.Demo
import Verif.Lemmas.Scatter

namespace GS.Props
open GS F64
variable {n : Nat}

/-! ### C31: results and errors -/

/-- The point leaves the box in some coordinate. -/
def Outside (p : Problem n) (x : Pt n) : Prop :=
  ∃ i, F64.lt (x i) (p.lower i) = true ∨ F64.lt (p.upper i) (x i) = true

theorem not_withinBounds {p : Problem n} {x : Pt n} (h : withinBounds p x = false) : Outside p x := by
  unfold withinBounds at h
  rw [List.all_eq_false] at h
  obtain ⟨i, _, hi⟩ := h
  refine ⟨i, ?_⟩
  rw [Bool.not_eq_true, Bool.not_eq_false', Bool.or_eq_true] at hi
  exact hi

theorem setFold_none {c : SetCfg n} {hist : List (Sol n)} (h : setFold c none hist = none) :
    ∀ s ∈ hist, c.exclude = true ∧ Outside c.problem s.point := by
  induction hist with
  | nil => simp
  | cons s l ih =>
    have hc : classify c none s = .outOfBounds := by
      by_contra hne
      have h1 : classify c none s = .first := by
        unfold classify at hne ⊢
        split
        · rename_i hh; rw [if_pos hh] at hne; exact absurd rfl hne
        · rfl
      have h2 : setFold c none (s :: l) = setFold c (some [s]) l := by
        unfold setFold
        rw [List.foldl_cons, h1]; rfl
      rw [h2] at h
      have h3 : ∀ (l : List (Sol n)) (st : Option (List (Sol n))), st ≠ none → setFold c st l ≠ none := by
        intro l
        induction l with
        | nil => intro st hst; exact hst
        | cons a l ih =>
          intro st hst
          unfold setFold
          rw [List.foldl_cons]
          apply ih
          cases classify c st a <;> simp [newSet, hst]
      exact h3 l _ (by simp) h
    have h2 : setFold c none (s :: l) = setFold c none l := by
      unfold setFold
      rw [List.foldl_cons, hc]; rfl
    rw [h2] at h
    intro x hx
    rw [List.mem_cons] at hx
    rcases hx with rfl | hx
    · unfold classify at hc
      split at hc
      · rename_i hh
        rw [Bool.and_eq_true] at hh
        exact ⟨hh.1, not_withinBounds (by simpa using hh.2)⟩
      · cases hc
    · exact ih h x hx

/-- C31, first part: a successful run never returns an empty set.  (A checkpoint holding an empty
set can only be made by hand, see `C31_saved_nonempty`.) -/
theorem C31_nonempty {env : Env n} {o : Opt n} {loaded : Option (Except CkErr (Ckpt n))}
    (hb : Built o) (hl : ∀ c, loaded = some (.ok c) → c.solutionSet ≠ some []) {set : List (Sol n)}
    (hok : (run env o loaded).result = .ok set) : set ≠ [] := by
  obtain ⟨hs, o1, r, h1⟩ := run_ok hok
  have hne : o1.solset ≠ some [] := by
    unfold startOpt Opt.tryResume at h1
    split at h1
    · cases h1
      show o.solset ≠ _
      rw [hb.unused.solset]; simp
    · split at h1
      · split at h1
        · cases h1
          show o.solset ≠ _
          rw [hb.unused.solset]; simp
        · cases h1
        · rename_i c
          cases h1
          exact hl c rfl
      · cases h1
        show o.solset ≠ _
        rw [hb.unused.solset]; simp
  have hi := histInv hne (run_reach env o loaded h1)
  intro hc
  exact setFold_ne_nil (procs (run env o loaded).final.trace) hne
    (hi.solset.symm.trans (by rw [hs, hc]))

/-- The checkpoints written by a run never hold an empty set. -/
theorem saved_nonempty {env : Env n} {o : Opt n} {u sv : Nat} {m : M n} (hne : o.solset ≠ some [])
    (h : Reach env ⟨o, u, sv, []⟩ m) : ∀ it c, Event.saved it c ∈ m.trace →
      c.solutionSet ≠ some [] := by
  induction h with
  | refl => intro it c hc; simp at hc
  | tail hr hp ih =>
    cases hp
    case opt => exact ih
    case uc => exact ih
    case log e he _ =>
      intro it c hc
      rw [List.mem_append, List.mem_singleton] at hc
      rcases hc with hc | hc
      · exact ih it c hc
      · subst hc; simp [Event.plain] at he
    case save m hio =>
      intro it c hc
      rw [List.mem_append, List.mem_singleton] at hc
      rcases hc with hc | hc
      · exact ih it c hc
      · injection hc with _ hc
        subst hc
        show m.opt.solset ≠ some []
        rw [(histInv hne hr).solset]
        exact setFold_ne_nil _ hne
    case saveFail m hio =>
      intro it c hc
      rw [List.mem_append, List.mem_singleton] at hc
      rcases hc with hc | hc
      · exact ih it c hc
      · cases hc
    case proc m s hs =>
      intro it c hc
      rw [List.mem_append, List.mem_singleton] at hc
      rcases hc with hc | hc
      · exact ih it c hc
      · cases hc

/-- C31: the checkpoints written by a run never hold an empty set. -/
theorem C31_saved_nonempty {env : Env n} {o : Opt n} {loaded : Option (Except CkErr (Ckpt n))}
    (hb : Built o) (hl : ∀ c, loaded = some (.ok c) → c.solutionSet ≠ some []) :
    ∀ it c, Event.saved it c ∈ (run env o loaded).final.trace → c.solutionSet ≠ some [] := by
  cases h1 : startOpt env o loaded with
  | error e =>
    intro it c hc
    unfold run at hc
    unfold startOpt at h1
    dsimp only at hc
    rw [h1] at hc
    cases hc
  | ok p =>
    obtain ⟨o1, r⟩ := p
    have hne : o1.solset ≠ some [] := by
      unfold startOpt Opt.tryResume at h1
      split at h1
      · cases h1
        show o.solset ≠ _
        rw [hb.unused.solset]; simp
      · split at h1
        · split at h1
          · cases h1
            show o.solset ≠ _
            rw [hb.unused.solset]; simp
          · cases h1
          · rename_i c
            cases h1
            exact hl c rfl
        · cases h1
          show o.solset ≠ _
          rw [hb.unused.solset]; simp
    exact saved_nonempty hne (run_reach env o loaded h1)

theorem finish_error {r : M n × Out} {e : Err} (h : (finish r).result = .error e) :
    r.2 = .fail e ∨ (r.2.ok ∧ r.1.opt.solset = none ∧ e = .noFeasibleSolution 0) := by
  obtain ⟨m, o⟩ := r
  unfold finish at h
  cases o with
  | fail e' => cases h; exact Or.inl rfl
  | cont =>
    right
    dsimp only at h ⊢
    cases hs : m.opt.solset with
    | none => rw [hs] at h; cases h; exact ⟨Out.ok_cont, rfl, rfl⟩
    | some s => rw [hs] at h; cases h
  | stop =>
    right
    dsimp only at h ⊢
    cases hs : m.opt.solset with
    | none => rw [hs] at h; cases h; exact ⟨Out.ok_stop, rfl, rfl⟩
    | some s => rw [hs] at h; cases h

theorem scatter_error {env : Env n} {o : Opt n} {e : Err} (h : Act.scatter env o = .error e) :
    ∃ x, e = .scatterNew x ∨ e = .scatterRun x := by
  unfold Act.scatter at h
  split at h
  · cases h; exact ⟨_, Or.inl rfl⟩
  · dsimp only at h
    split at h
    · cases h; exact ⟨_, Or.inr rfl⟩
    · cases h

/-- A local search succeeded. -/
def Searched (tr : List (Event n)) : Prop := ∃ it p s, Event.search it p (.ok s) ∈ tr

/-- The action, unless it fails, leaves a successful search in the trace. -/
def Ends (a : Act n) : Prop := ∀ m, (a m).2.ok → Searched (a m).1.trace

theorem Ends.left {env : Env n} {a b : Act n} (ha : Ends a) (hb : Steps env b) : Ends (a ;; b) := by
  intro m
  rw [Act.seq_def]
  split
  · rename_i hc
    intro _
    obtain ⟨it, p, s, h⟩ := ha m (by rw [hc]; exact Out.ok_cont)
    obtain ⟨t, ht⟩ := (hb (a m).1).trace
    exact ⟨it, p, s, by rw [ht]; simp [h]⟩
  · exact ha m

theorem Ends.right {a b : Act n} (ha : QuietAct a) (hb : Ends b) : Ends (a ;; b) := by
  intro m
  rw [Act.seq_def]
  split
  · exact hb _
  · rename_i hc
    intro hok
    cases h : (a m).2 with
    | cont => exact absurd h hc
    | stop => exact absurd h (ha.nostop m)
    | fail e => exact absurd h (hok e)

theorem ends_stage1Local (env : Env n) (p : Pt n) (ref : List (Pt n)) :
    Ends (Act.stage1Local env p ref) := by
  intro m
  unfold Act.stage1Local
  split
  · intro h; exact absurd rfl (h _)
  · rename_i s evals _
    intro _
    have hst : StepsAfter env s (Act.setThreshold s.objective ;;
      Act.obsLocal1 env s (if m.opt.tracks1 then evals else 0) ;;
      Act.process s fun _ => fun m' =>
        if m'.opt.targetReached then (Act.obsEnd1 env ;; fun m'' => (m'', .stop)) m'
        else (Act.storeRef ref ;; Act.obsEnd1 env) m') := by
      refine StepsAfter.seq (Steps.setThreshold env _) (StepsAfter.seq (Steps.obsLocal1 env _ _)
        (StepsAfter.process fun _ => ?_))
      intro m'
      dsimp only
      split
      · exact (Steps.seq (Steps.obsEnd1 env) (fun _ => Relation.ReflTransGen.refl)) m'
      · exact (Steps.seq (Steps.storeRef env ref) (Steps.obsEnd1 env)) m'
    obtain ⟨t, ht⟩ := (hst { m with trace := m.trace ++ [.search none p (.ok s)] }
      ⟨none, p, by simp⟩).trace
    exact ⟨none, p, s, by rw [ht]; simp⟩

theorem ends_fresh (env : Env n) : Ends (Act.body (n := n) env false) := by
  intro m
  unfold Act.body
  rw [if_neg (by simp)]
  unfold Act.stage1
  split
  · intro h; exact absurd rfl (h _)
  · rename_i r hr
    have hb : QuietAct (if m.opt.tracks1 = true then Act.obsScatter env r else Act.skip) := by
      split
      · exact QuietAct.obsScatter env r
      · exact QuietAct.skip
    exact Ends.right (QuietAct.log rfl) (Ends.right hb (Ends.right (QuietAct.obsScatterDone env _ _)
      (Ends.left (env := env) (ends_stage1Local env _ _) (Steps.seq
        (fun m => Relation.ReflTransGen.single (Prim.uc m 0)) (Steps.stage2 env false _ _))))) m

/-- C31, second part: `NoFeasibleSolution` is returned by a fresh run only if solutions outside the
bounds are excluded and every solution found by a local search (there is at least one) is outside. -/
theorem C31_no_feasible {env : Env n} {o : Opt n} {loaded : Option (Except CkErr (Ckpt n))}
    (hb : Built o) (hf : Fresh o loaded) (hc : Completes env o.params.iterations) {k : Nat}
    (h : (run env o loaded).result = .error (.noFeasibleSolution k)) :
    o.exclude = true ∧ foundSols (run env o loaded).final.trace ≠ [] ∧
      ∀ s ∈ foundSols (run env o loaded).final.trace, Outside o.problem s.point := by
  rw [run_fresh env o loaded hf] at h ⊢
  rw [finish_final]
  have hbl := Errs.fresh (o := started env o) hc (Nat.le_refl _)
  rcases finish_error h with hfail | ⟨hok, hnone, _⟩
  · exfalso
    rcases hbl with ⟨e, he, hr⟩ | ⟨_, _, hbl, _⟩
    · rw [hr] at hfail
      cases hfail
      obtain ⟨x, hx | hx⟩ := scatter_error he <;> cases hx
    · rcases hbl _ hfail with ⟨_, _, _, _, hx⟩ | ⟨_, _, _, _, _, hx⟩ | ⟨_, hx | ⟨_, hx⟩⟩ <;> cases hx
  · have hne : (started env o).solset ≠ some [] := by
      show o.solset ≠ _
      rw [hb.unused.solset]; simp
    have hrec := recN_fresh env ⟨started env o, 0, 0, []⟩ rfl hnone hok
    have hi := histInv hne (Steps.body env false ⟨started env o, 0, 0, []⟩)
    obtain ⟨it, p, s, hsr⟩ := ends_fresh env ⟨started env o, 0, 0, []⟩ hok
    have hset := hi.solset
    rw [hnone, show (started env o).solset = none from hb.unused.solset] at hset
    have hall := setFold_none hset.symm
    have hmem : s ∈ foundSols (Act.body env false ⟨started env o, 0, 0, []⟩).1.trace := by
      unfold foundSols
      rw [List.mem_filterMap]
      exact ⟨_, hsr, rfl⟩
    rw [← hrec] at hall
    exact ⟨(hall s hmem).1, List.ne_nil_of_mem hmem, fun s hs => (hall s hs).2⟩

/-- As `C31_no_feasible` for resumed runs: the checkpoint held no solutions either. -/
theorem C31_no_feasible_resumed {env : Env n} {o : Opt n} {loaded : Option (Except CkErr (Ckpt n))}
    {c : Ckpt n} (hr : Resumes o loaded c) (hc : Completes env c.params.iterations) {k : Nat}
    (h : (run env o loaded).result = .error (.noFeasibleSolution k)) :
    c.solutionSet = none ∧ ∀ s ∈ foundSols (run env o loaded).final.trace,
      c.excludeOutOfBounds = true ∧ Outside o.problem s.point := by
  rw [run_resumes env o loaded hr] at h ⊢
  rw [finish_final]
  rcases finish_error h with hfail | ⟨hok, hnone, _⟩
  · exfalso
    obtain ⟨_, hbl, _⟩ := Errs.resumed (o := (started env o).restore c) hc (Nat.le_refl _)
    rcases hbl _ hfail with ⟨_, _, _, _, hx⟩ | ⟨_, _, _, _, _, hx⟩ | ⟨_, hx | ⟨_, hx⟩⟩ <;> cases hx
  · have h0 := (Steps.body env true ⟨(started env o).restore c, 0, 0, []⟩).unset hnone
    have h0 : c.solutionSet = none := h0
    refine ⟨h0, ?_⟩
    have hrec := recN_resumed env ⟨(started env o).restore c, 0, 0, []⟩ rfl hnone hok
    have hi := histInv (by show c.solutionSet ≠ _; rw [h0]; simp)
      (Steps.body env true ⟨(started env o).restore c, 0, 0, []⟩)
    have hset := hi.solset
    rw [hnone, show ((started env o).restore c).solset = none from h0] at hset
    have hall := setFold_none hset.symm
    rw [← hrec] at hall
    exact hall

/-- C31, third part, for fresh runs: the returned error names what failed, and nothing failed in a
run that succeeds. -/
theorem C31_errors_partial {env : Env n} {o : Opt n} {loaded : Option (Except CkErr (Ckpt n))}
    (hf : Fresh o loaded) (hc : Completes env o.params.iterations) :
    (∀ e, (run env o loaded).result = .error e →
      (Act.scatter env o = .error e ∧ ∃ x, e = .scatterNew x ∨ e = .scatterRun x) ∨
      (∃ it p x, Event.search it p (.error x) ∈ (run env o loaded).final.trace ∧
        e = .localSolver x) ∨
      ((∀ it p x, Event.search it p (.error x) ∉ (run env o loaded).final.trace) ∧
        (e = .panic ∨ (∃ c, e = .checkpoint c) ∨ e = .noFeasibleSolution 0))) ∧
    (∀ set, (run env o loaded).result = .ok set →
      (∃ r, Act.scatter env o = .ok r) ∧
      ∀ it p x, Event.search it p (.error x) ∉ (run env o loaded).final.trace) := by
  rw [run_fresh env o loaded hf, finish_final]
  have hbl := Errs.fresh (o := started env o) hc (Nat.le_refl _)
  have hsc : Act.scatter env (started env o) = Act.scatter env o := rfl
  obtain ⟨t, ht, _, _, hev⟩ := bound_body_fresh env ⟨started env o, 0, 0, []⟩
  rw [List.nil_append] at ht
  have hclean : Clean (started env o).problem.objective
      (Act.body env false ⟨started env o, 0, 0, []⟩).1.trace →
      ∀ it p x, Event.search it p (.error x) ∉ (Act.body env false ⟨started env o, 0, 0, []⟩).1.trace :=
    fun hcl it p x hm => hcl _ hm trivial
  constructor
  · intro e he
    rcases hbl with ⟨e', he', hr⟩ | ⟨_, _, hbl, hcl⟩
    · left
      rw [hr] at he
      cases he
      exact ⟨hsc ▸ he', scatter_error he'⟩
    · right
      rcases finish_error he with hfail | ⟨hok, _, rfl⟩
      · rcases hbl _ hfail with ⟨it, p, x, hm, hx⟩ | ⟨it, p, x, hm, _⟩ | ⟨hcl, hx⟩
        · exact Or.inl ⟨it, p, x, hm, hx⟩
        · exfalso
          rw [ht] at hm
          have : (it, p) ∈ evaluated t := by
            unfold evaluated
            rw [List.mem_filterMap]
            exact ⟨_, hm, rfl⟩
          rw [List.length_eq_zero_iff.1 hev] at this
          cases this
        · right
          refine ⟨hclean hcl, ?_⟩
          rcases hx with hx | hx
          · exact Or.inl hx
          · exact Or.inr (Or.inl hx)
      · exact Or.inr ⟨hclean (hcl hok), Or.inr (Or.inr rfl)⟩
  · intro set hok
    obtain ⟨_, hok⟩ := finish_ok hok
    rcases hbl with ⟨e', he', hr⟩ | ⟨hr, _, hbl, hcl⟩
    · exact absurd (by rw [hr]) (hok e')
    · exact ⟨hr, hclean (hcl hok)⟩

/-- C31, third part, for resumed runs. -/
theorem C31_errors_resumed {env : Env n} {o : Opt n} {loaded : Option (Except CkErr (Ckpt n))}
    {c : Ckpt n} (hr : Resumes o loaded c) (hc : Completes env c.params.iterations) :
    (∀ e, (run env o loaded).result = .error e →
      (∃ it p x, Event.search it p (.error x) ∈ (run env o loaded).final.trace ∧
        e = .localSolver x) ∨
      (∃ it p x, Event.evaluate it p ∈ (run env o loaded).final.trace ∧
        o.problem.objective p = .error x ∧ e = .objectiveFailed) ∨
      (e = .panic ∨ (∃ c, e = .checkpoint c) ∨ e = .noFeasibleSolution 0)) ∧
    (∀ set, (run env o loaded).result = .ok set →
      (∀ it p x, Event.search it p (.error x) ∉ (run env o loaded).final.trace) ∧
      ∀ it p, Event.evaluate it p ∈ (run env o loaded).final.trace →
        ∃ v, o.problem.objective p = .ok v) := by
  rw [run_resumes env o loaded hr, finish_final]
  obtain ⟨_, hbl, hcl⟩ := Errs.resumed (o := (started env o).restore c) hc (Nat.le_refl _)
  constructor
  · intro e he
    rcases finish_error he with hfail | ⟨_, _, rfl⟩
    · rcases hbl _ hfail with h | h | ⟨_, hx | hx⟩
      · exact Or.inl h
      · exact Or.inr (Or.inl h)
      · exact Or.inr (Or.inr (Or.inl hx))
      · exact Or.inr (Or.inr (Or.inr (Or.inl hx)))
    · exact Or.inr (Or.inr (Or.inr (Or.inr rfl)))
  · intro set hok
    obtain ⟨_, hok⟩ := finish_ok hok
    have := hcl hok
    refine ⟨fun it p x hm => this _ hm trivial, fun it p hm => ?_⟩
    cases hp : o.problem.objective p with
    | ok v => exact ⟨v, rfl⟩
    | error x => exact absurd ⟨x, hp⟩ (this _ hm)

theorem evalAll_error {p : Problem n} {l : List (Pt n)} {e : ScatterErr}
    (h : Scatter.evalAll p l = .error e) :
    ∃ x ∈ l, ∃ y, p.objective x = .error y ∧ e = .evaluation y := by
  induction l with
  | nil => cases h
  | cons a l ih =>
    unfold Scatter.evalAll at h
    split at h
    · rename_i y hy
      cases h
      exact ⟨a, by simp, y, hy, rfl⟩
    · split at h
      · rename_i e' he'
        cases h
        obtain ⟨x, hx, y, hy⟩ := ih he'
        exact ⟨x, by simp [hx], y, hy⟩
      · cases h

theorem evalInit_error {par : Bool} {order : List Nat} {p : Problem n} {l : List (Pt n)} {e : ScatterErr}
    (h : Scatter.evalInit par order p l = .error e) :
    ∃ x ∈ l, ∃ y, p.objective x = .error y ∧ e = .evaluation y := by
  rcases Scatter.evalInit_cases par order p l with k | ⟨_, x, hx, y, hy, k⟩
  · exact evalAll_error (k.symm.trans h)
  · rw [k] at h
    cases h
    exact ⟨x, hx, y, hy, rfl⟩

/-- The scatter search as stage 1 configures it. -/
def configured (o : Opt n) : Scatter n := ⟨o.problem, o.params, [], [], 0, o.par, o.custom⟩

theorem scatter_configured {env : Env n} {o : Opt n}
    (h : ∀ i, F64.lt (o.problem.lower i) (o.problem.upper i) = true) :
    Act.scatter env o = match (configured o).run env.rt env.sched with
      | .error e => .error (.scatterRun e)
      | .ok r => .ok r := by
  have hn : Scatter.new o.problem o.params = .ok ⟨o.problem, o.params, [], [], 0, true, none⟩ := by
    unfold Scatter.new
    rw [List.find?_eq_none.2]
    intro i _
    have := h i
    rw [lt_iff] at this
    rw [F64.ge, le_iff]
    omega
  unfold Act.scatter
  rw [hn]
  have hc : (match o.custom with
      | some l => Scatter.withCustom (Scatter.setParallel
          ⟨o.problem, o.params, [], [], 0, true, none⟩ o.par) l
      | none => Scatter.setParallel ⟨o.problem, o.params, [], [], 0, true, none⟩ o.par) =
      configured o := by
    unfold configured
    cases o.custom <;> rfl
  unfold configured at hc
  cases ho : o.custom <;> rw [ho] at hc <;> (dsimp only at hc ⊢; rw [hc]; unfold configured; rw [ho]) <;>
    (split <;> simp_all)

/-- C31, stage 1: if the objective fails at one of the points of the initial reference set, `run`
returns that failure (or the failure of another of these points). -/
theorem C31_stage1_failure {env : Env n} {o : Opt n} {loaded : Option (Except CkErr (Ckpt n))}
    (hf : Fresh o loaded) (hbd : ∀ i, F64.lt (o.problem.lower i) (o.problem.upper i) = true)
    {s1 : Scatter n} {ref : List (Pt n)}
    (hdiv : (configured o).diversify env.rt env.sched
      (Scatter.seedPoints o.problem ++ (configured o).customPoints) = .ok (s1, ref))
    {p : Pt n} (hp : p ∈ ref) {x : EvalErr} (hx : o.problem.objective p = .error x) :
    ∃ q ∈ ref, ∃ y, o.problem.objective q = .error y ∧
      (run env o loaded).result = .error (.scatterRun (.evaluation y)) := by
  have key : ∃ q ∈ ref, ∃ y, o.problem.objective q = .error y ∧
      Act.scatter env o = .error (.scatterRun (.evaluation y)) := by
    rw [scatter_configured hbd]
    unfold Scatter.run Scatter.init
    rw [show (configured o).problem = o.problem from rfl, hdiv]
    dsimp only
    cases hev : Scatter.evalInit (configured o).parallel env.sched.evals o.problem ref with
    | error e =>
      obtain ⟨q, hq, y, hy, rfl⟩ := evalInit_error hev
      exact ⟨q, hq, y, hy, rfl⟩
    | ok vs =>
      exfalso
      have := Scatter.evalAll_ok (Scatter.evalInit_ok.1 hev)
      have hm : o.problem.objective p ∈ vs.map Except.ok := by
        rw [← this]; exact List.mem_map.2 ⟨p, hp, rfl⟩
      rw [hx] at hm
      simp at hm
  obtain ⟨q, hq, y, hy, hs⟩ := key
  refine ⟨q, hq, y, hy, ?_⟩
  rw [run_fresh env o loaded hf]
  unfold Act.body
  rw [if_neg (by simp)]
  unfold Act.stage1
  rw [show Act.scatter env (started env o) = Act.scatter env o from rfl, hs]
  rfl

/-! ### C32: bounded work -/

/-- C32 for fresh runs, sequential or parallel: at most one stage-1 search and at most `iterations`
stage-2 searches, no evaluations by stage 2. -/
theorem C32_fresh (env : Env n) (o : Opt n) (loaded : Option (Except CkErr (Ckpt n)))
    (hf : Fresh o loaded) :
    (firstSearches (run env o loaded).final.trace).length ≤ 1 ∧
    (searched (run env o loaded).final.trace).length ≤ o.params.iterations ∧
    evaluated (run env o loaded).final.trace = [] := by
  rw [run_fresh env o loaded hf, finish_final]
  obtain ⟨t, ht, h1, h2, h3⟩ := bound_body_fresh env ⟨started env o, 0, 0, []⟩
  rw [List.nil_append] at ht
  rw [ht]
  exact ⟨h1, h2, List.length_eq_zero_iff.1 h3⟩

/-- C32 for resumed runs: no stage-1 search; the bounds are those of the checkpointed parameters. -/
theorem C32_resumed (env : Env n) (o : Opt n) (loaded : Option (Except CkErr (Ckpt n))) {c : Ckpt n}
    (hr : Resumes o loaded c) :
    firstSearches (run env o loaded).final.trace = [] ∧
    (searched (run env o loaded).final.trace).length ≤ c.params.iterations ∧
    (evaluated (run env o loaded).final.trace).length ≤ c.params.iterations := by
  rw [run_resumes env o loaded hr, finish_final]
  obtain ⟨t, ht, h1, h2, h3⟩ := bound_body_resumed env ⟨(started env o).restore c, 0, 0, []⟩
  rw [List.nil_append] at ht
  rw [ht]
  exact ⟨List.length_eq_zero_iff.1 h1, h2, h3⟩

/-- Number of local searches started. -/
def searchCount (tr : List (Event n)) : Nat :=
  (tr.filter fun e => match e with
    | .search _ _ _ => true
    | _ => false).length

theorem searchCount_eq (tr : List (Event n)) :
    searchCount tr = (firstSearches tr).length + (searched tr).length := by
  unfold searchCount firstSearches searched
  induction tr with
  | nil => rfl
  | cons e tr ih =>
    rcases e with _ | _ | _ | ⟨it, p, r⟩ | _ | _ | _ | _ | _
    case search =>
      cases it <;> simp [ih] <;> omega
    all_goals simpa using ih

/-- C32, in total: whatever is loaded, a run starts at most `1 + iterations` local searches, where
`iterations` is the parameter in force. -/
theorem C32_total (env : Env n) (o : Opt n) (loaded : Option (Except CkErr (Ckpt n))) :
    (Fresh o loaded → searchCount (run env o loaded).final.trace ≤ 1 + o.params.iterations) ∧
    (∀ c, Resumes o loaded c →
      searchCount (run env o loaded).final.trace ≤ c.params.iterations) ∧
    (∀ e, loaded = some (.error e) → ¬ Fresh o loaded →
      searchCount (run env o loaded).final.trace = 0) := by
  refine ⟨fun hf => ?_, fun c hr => ?_, ?_⟩
  · obtain ⟨h1, h2, _⟩ := C32_fresh env o loaded hf
    rw [searchCount_eq]; omega
  · obtain ⟨h1, h2, _⟩ := C32_resumed env o loaded hr
    rw [searchCount_eq, h1]
    simpa using h2
  · rintro e rfl hnf
    have : ∃ cfg, o.ckpt = some cfg ∧ cfg.autoResume = true := by
      by_contra hc
      apply hnf
      right
      intro c hcfg
      by_contra ha
      exact hc ⟨c, hcfg, by simpa using ha⟩
    obtain ⟨cfg, h1, h2⟩ := this
    unfold run
    dsimp only
    have h3 : (Act.obsStart env ⟨o, 0, 0, []⟩).1.opt.tryResume (some (.error e)) =
        .error (.checkpoint e) := by
      unfold Opt.tryResume
      rw [show (Act.obsStart env ⟨o, 0, 0, []⟩).1.opt.ckpt = o.ckpt from rfl, h1]
      dsimp only
      rw [h2]; rfl
    rw [h3]
    rfl

/-! ### Examples and counterexamples -/

open Witness

theorem covers_range (k N : Nat) (h : N ≤ k) : Covers (List.range k) N :=
  fun i hi => List.mem_range.2 (by omega)

/-- The environments of the examples complete all tasks of batches of up to 64 items. -/
theorem env_completes (solve : SolverType → SolverConfig → Pt n → Except LErr (Sol n × Nat)) {N : Nat}
    (h : N ≤ 64) : Completes (env solve) N := fun _ => ⟨covers_range 64 N h, covers_range 64 N h⟩

/-- Local search that always leaves the box. -/
def leave (_ : SolverType) (_ : SolverConfig) (_ : Pt 1) : Except LErr (Sol 1 × Nat) :=
  .ok (⟨pt (num 9), num 9⟩, 1)

/-- Local search that fails away from the best point. -/
def failing (_ : SolverType) (_ : SolverConfig) (p : Pt 1) : Except LErr (Sol 1 × Nat) :=
  if p 0 = num 1 then .ok (⟨pt (num 3), num 3⟩, 1) else .error .noSolution

def resultErr (r : RunResult n) : Option Err := match r.result with
  | .ok _ => none
  | .error e => some e

theorem resultErr_iff {r : RunResult n} {e : Err} (h : resultErr r = some e) : r.result = .error e := by
  unfold resultErr at h
  split at h
  · cases h
  · cases h; assumption

/-- `C31_no_feasible` is not vacuous (sequential and parallel). -/
example : Built (demo.setExclude true) ∧ Completes (env leave) (demo.setExclude true).params.iterations ∧
    (run (env leave) (demo.setExclude true) none).result = .error (.noFeasibleSolution 0) ∧
    (run (env leave) (demoSeq.setExclude true) none).result = .error (.noFeasibleSolution 0) :=
  ⟨Built.exclude true demo_built, env_completes leave (by decide +kernel),
    resultErr_iff (by decide +kernel), resultErr_iff (by decide +kernel)⟩

/-- A failing local search in stage 2 is reported. -/
example : (run (env failing) demo none).result = .error (.localSolver .noSolution) ∧
    (run (env failing) demoSeq none).result = .error (.localSolver .noSolution) :=
  ⟨resultErr_iff (by decide +kernel), resultErr_iff (by decide +kernel)⟩

/-- The objective fails at 4. -/
def cliff : Problem 1 := { lin with objective := fun p => if p 0 = num 4 then .error ⟨7⟩ else .ok (p 0) }

/-- A failure in the initial reference set is reported. -/
example : ∃ o, Opt.new cliff (params 4 6 0) = .ok o ∧
    (run (env stay) o none).result = .error (.scatterRun (.evaluation ⟨7⟩)) :=
  ⟨mk cliff (params 4 6 0) (by decide +kernel), okOf_eq _ _, resultErr_iff (by decide +kernel)⟩

/-- The objective is defined only at 1, 2.5, 4 and 1.6. -/
def spotty : Problem 1 := { lin with objective := fun p =>
  if (p 0 = num 1 ∨ p 0 = F64.lit 5 2) ∨ (p 0 = num 4 ∨ p 0 = F64.lit 8 5) then .ok (p 0) else .error ⟨7⟩ }

theorem spotty_ok : (Opt.new spotty (params 4 4 0)).toOption.isSome = true := by decide +kernel

def spottyOpt : Opt 1 := mk spotty (params 4 4 0) spotty_ok

/-- Samples at 1.6. -/
def spottyEnv : Env 1 := { env stay with rt := rtWith (fun _ _ => F64.lit 8 5) (fun _ _ => num 0) }

/-- Is the objective evaluated at a trial point where it fails? -/
def trialFails (e : Env n) (o : Opt n) : Bool :=
  match (configured o).init e.rt e.sched with
  | .error _ => false
  | .ok s1 =>
    match s1.trialPoints e.rt with
    | none => false
    | some (s2, trials) => trials.any fun p =>
      Scatter.trialEvaluated s2 (Scatter.distThreshold s2.parallel e.sched.sum s2.refSet) p &&
        match o.problem.objective p with
        | .error _ => true
        | .ok _ => false

theorem trialFails_iff {e : Env n} {o : Opt n} (h : trialFails e o = true) :
    ∃ s1 s2 trials p x, (configured o).init e.rt e.sched = .ok s1 ∧
      s1.trialPoints e.rt = some (s2, trials) ∧ p ∈ trials ∧
      Scatter.trialEvaluated s2 (Scatter.distThreshold s2.parallel e.sched.sum s2.refSet) p = true ∧
      o.problem.objective p = .error x := by
  unfold trialFails at h
  split at h
  · cases h
  · rename_i s1 h1
    split at h
    · cases h
    · rename_i s2 trials h2
      rw [List.any_eq_true] at h
      obtain ⟨p, hp, hq⟩ := h
      rw [Bool.and_eq_true] at hq
      obtain ⟨q1, q2⟩ := hq
      split at q2
      · rename_i x hx
        exact ⟨s1, s2, trials, p, x, h1, h2, hp, q1, hx⟩
      · cases q2

/-- C31 is violated in stage 1: when the objective fails at a trial point the failure is dropped and
the run succeeds. -/
theorem C31_trial_failure_ignored : Built spottyOpt ∧ spottyEnv.rt.Valid ∧
    (∃ s1 s2 trials p x, (configured spottyOpt).init spottyEnv.rt spottyEnv.sched = .ok s1 ∧
      s1.trialPoints spottyEnv.rt = some (s2, trials) ∧ p ∈ trials ∧
      Scatter.trialEvaluated s2
        (Scatter.distThreshold s2.parallel spottyEnv.sched.sum s2.refSet) p = true ∧
      spottyOpt.problem.objective p = .error x) ∧
    ∃ set, (run spottyEnv spottyOpt none).result = .ok set :=
  ⟨mk_built spotty_ok, rtWith_valid _ _, trialFails_iff (by decide +kernel),
    succeeds_iff (by decide +kernel)⟩

/-- C32 is about runs that do search: the demo makes two searches, its parallel version three. -/
example : searchCount (run (env stay) demoSeq none).final.trace = 2 ∧
    searchCount (run (env stay) demo none).final.trace = 3 := by decide +kernel

end GS.Props
