/- C104: verbose output accounts for the returned solutions and the threshold. -/
import Verif.Model.Verbose
import Verif.Props.EveryMode
import Verif.Props.SolutionSet

namespace GS.Props
open GS GS.Witness
variable {n : Nat}

/-! ### Specification: reading the output -/

/-- What a reader of the output takes the solution set to be: a new best solution replaces it, a new solution is added to
it. -/
def reader (set : List (Sol n)) : Line n → List (Sol n)
  | .added f p => set ++ [⟨p, f⟩]
  | .best f p => [⟨p, f⟩]
  | _ => set

/-- The set according to the output, starting from what is known at the start. -/
def readSet (set : List (Sol n)) (out : List (Line n)) : List (Sol n) := out.foldl reader set

/-! ### Proofs -/

theorem printedFrom_append (set : Option (List (Sol n))) (b : F64 × List F64) (a c : List (Event n)) :
    printedFrom set b (a ++ c) =
      printedFrom set b a ++ printedFrom (a.foldl storeStep set) (a.foldl bookStep b) c := by
  induction a generalizing set b with
  | nil => rfl
  | cons e l ih =>
    show eventLines set b.1 e ++ printedFrom _ _ (l ++ c) = eventLines set b.1 e ++ _ ++ _
    rw [ih, List.append_assoc]
    rfl

theorem readSet_append (set : List (Sol n)) (a b : List (Line n)) :
    readSet set (a ++ b) = readSet (readSet set a) b := by unfold readSet; rw [List.foldl_append]

theorem read_event (set : Option (List (Sol n))) (t : F64) (e : Event n)
    (h : ∀ s, e = .processed s .first → set = none) :
    readSet (set.getD []) (eventLines set t e) = (storeStep set e).getD [] := by
  cases e with
  | processed s v =>
    cases v with
    | first => rw [h s rfl]; rfl
    | _ => rfl
  | _ => rfl

/-- The first verdict is given only without a set. -/
def FirstOnlyFirst (set : Option (List (Sol n))) (tr : List (Event n)) : Prop :=
  ∀ pre s post, tr = pre ++ .processed s .first :: post → pre.foldl storeStep set = none

theorem read_printed (set : Option (List (Sol n))) (b : F64 × List F64) (tr : List (Event n))
    (h : FirstOnlyFirst set tr) :
    readSet (set.getD []) (printedFrom set b tr) = (tr.foldl storeStep set).getD [] := by
  induction tr using List.reverseRecOn with
  | nil => rfl
  | append_singleton l e ih =>
    rw [printedFrom_append, readSet_append, ih fun pre s post hx => h pre s (post ++ [e]) (by rw [hx]; simp),
      List.foldl_append]
    show readSet _ (eventLines _ _ e ++ []) = _
    rw [List.append_nil, read_event]
    · rfl
    · rintro s rfl
      exact h l s [] rfl

/-- The solution set of the machine is what the recorded verdicts say. -/
theorem solset_of_verdicts {env : Env n} {o : Opt n} {u sv : Nat} {m : M n}
    (h : Reach env ⟨o, u, sv, []⟩ m) :
    m.opt.solset = m.trace.foldl storeStep o.solset ∧ FirstOnlyFirst o.solset m.trace := by
  induction h with
  | refl => exact ⟨rfl, fun pre s post hx => by simp at hx⟩
  | tail hr hp ih =>
    obtain ⟨h1, h2⟩ := ih
    have app : ∀ (tr : List (Event n)) (e : Event n), FirstOnlyFirst o.solset tr →
        (∀ s, e = .processed s .first → tr.foldl storeStep o.solset = none) →
        FirstOnlyFirst o.solset (tr ++ [e]) := by
      intro tr e ht he pre s post hx
      rcases snoc_split hx with ⟨rfl, hh⟩ | ⟨post', hp⟩
      · exact he s hh.symm
      · exact ht pre s post' hp
    cases hp
    case opt m o' hc hs hd => exact ⟨hs.trans h1, h2⟩
    case uc m k => exact ⟨h1, h2⟩
    case log m e he _ =>
      refine ⟨?_, app _ _ h2 fun s hs => by subst hs; simp [Event.plain] at he⟩
      rw [List.foldl_append, ← h1]
      cases e <;> first | rfl | simp [Event.plain] at he
    case save m hio =>
      refine ⟨?_, app _ _ h2 fun s hs => by cases hs⟩
      rw [List.foldl_append, ← h1]; rfl
    case saveFail m hio =>
      refine ⟨?_, app _ _ h2 fun s hs => by cases hs⟩
      rw [List.foldl_append, ← h1]; rfl
    case proc m s hs =>
      refine ⟨?_, app _ _ h2 fun s' hs' => ?_⟩
      · rw [List.foldl_append, ← h1]
        show _ = newSet _ m.opt.solset s
        rw [Opt.process_solset, Opt.process_snd]
      · injection hs' with e1 e2
        rw [Opt.process_snd] at e2
        rw [← h1]
        unfold classify at e2
        split at e2
        · cases e2
        · split at e2
          · assumption
          · cases e2
          · dsimp only at e2
            split at e2
            · cases e2
            · split at e2 <;> cases e2

theorem size_event (set : Option (List (Sol n))) (t : F64) (e : Event n)
    (h : ∀ s, e = .processed s .first → set = none) {pre post : List (Line n)} {k : Nat}
    (hx : eventLines set t e = pre ++ .size k :: post) : k = (readSet (set.getD []) pre).length := by
  cases e with
  | processed s v =>
    cases v with
    | first =>
      rw [h s rfl]
      rcases pre with _ | ⟨a, _ | ⟨b, pre⟩⟩ <;> simp [eventLines, processLines] at hx
      obtain ⟨rfl, rfl, _⟩ := hx
      rfl
    | newBest =>
      rcases pre with _ | ⟨a, _ | ⟨b, pre⟩⟩ <;> simp [eventLines, processLines] at hx
      obtain ⟨rfl, rfl, _⟩ := hx
      rfl
    | added =>
      rcases pre with _ | ⟨a, _ | ⟨b, pre⟩⟩ <;> simp [eventLines, processLines, newSet] at hx
      obtain ⟨rfl, rfl, _⟩ := hx
      simp [readSet, reader]
    | outOfBounds => rcases pre with _ | ⟨a, _ | ⟨b, pre⟩⟩ <;> simp [eventLines, processLines] at hx
    | _ => simp [eventLines, processLines] at hx
  | relaxed => rcases pre with _ | ⟨a, _ | ⟨b, pre⟩⟩ <;> simp [eventLines] at hx
  | saved => rcases pre with _ | ⟨a, _ | ⟨b, pre⟩⟩ <;> simp [eventLines] at hx
  | _ => simp [eventLines] at hx

theorem sizes_printed (set : Option (List (Sol n))) (b : F64 × List F64) (tr : List (Event n))
    (h : FirstOnlyFirst set tr) {pre post : List (Line n)} {k : Nat}
    (hx : printedFrom set b tr = pre ++ .size k :: post) : k = (readSet (set.getD []) pre).length := by
  induction tr using List.reverseRecOn generalizing post with
  | nil => simp [printedFrom] at hx
  | append_singleton l e ih =>
    have hl : FirstOnlyFirst set l := fun pre s post hx => h pre s (post ++ [e]) (by rw [hx]; simp)
    rw [printedFrom_append] at hx
    have he : printedFrom (l.foldl storeStep set) (l.foldl bookStep b) [e] =
      eventLines (l.foldl storeStep set) (l.foldl bookStep b).1 e := List.append_nil _
    rw [he] at hx
    rcases List.append_eq_append_iff.1 hx with ⟨a, ha, hb⟩ | ⟨c, hc, hd⟩
    · rw [ha, readSet_append, read_printed set b l hl]
      exact size_event _ _ e (fun s hs => h l s [] (by rw [hs])) hb
    · cases c with
      | nil =>
        rw [List.append_nil] at hc
        rw [← hc, read_printed set b l hl]
        exact size_event _ _ e (fun s hs => h l s [] (by rw [hs])) (pre := []) hd.symm
      | cons x c =>
        obtain ⟨rfl, _⟩ := List.cons.inj hd
        exact ih hl hc

/-- Lines about the threshold come from relaxations. -/
theorem adjusting_printed (set : Option (List (Sol n))) (t0 : F64) (tr : List (Event n)) (it : Nat)
    (old new : F64) :
    Line.adjusting it old new ∈ printed set t0 tr ↔
      ∃ pre t post, tr = pre ++ .relaxed it t :: post ∧ old = inForce t0 pre ∧
        new = old.add ((F64.lit 1 10).mul old.abs) := by
  unfold printed
  induction tr using List.reverseRecOn with
  | nil => simp [printedFrom]
  | append_singleton l e ih =>
    rw [printedFrom_append, List.mem_append, ih]
    have he : printedFrom (l.foldl storeStep set) (l.foldl bookStep (t0, [])) [e] =
      eventLines (l.foldl storeStep set) (inForce t0 l) e := List.append_nil _
    rw [he]
    constructor
    · rintro (⟨pre, t, post, hx, a, b⟩ | h)
      · exact ⟨pre, t, post ++ [e], by rw [hx]; simp, a, b⟩
      · cases e with
        | relaxed i t =>
          simp only [eventLines, List.mem_singleton] at h
          injection h with h1 h2 h3
          exact ⟨l, t, [], by rw [h1], h2, by rw [h3, h2]; rfl⟩
        | processed s v => cases v <;> simp [eventLines, processLines] at h
        | _ => simp [eventLines] at h
    · rintro ⟨pre, t, post, hx, a, b⟩
      rcases snoc_split hx with ⟨rfl, rfl⟩ | ⟨post', hp⟩
      · right
        simp only [eventLines, List.mem_singleton]
        rw [b, a]
        rfl
      · exact .inl ⟨pre, t, post', hp, a, b⟩

/-! ### Theorems -/

/-- C104, fresh runs: the set read off the output is the returned set. -/
theorem C104_returned {env : Env n} {o : Opt n} {loaded : Option (Except CkErr (Ckpt n))} (hb : Built o)
    (hf : Fresh o loaded) {set : List (Sol n)} (hok : (run env o loaded).result = .ok set) :
    readSet [] (printed none F64.inf (run env o loaded).final.trace) = set := by
  obtain ⟨h1, h2, h3⟩ := freshAll (env := env) hb hf
  obtain ⟨u, sv, hr⟩ := h3.good.reach
  obtain ⟨a, b⟩ := solset_of_verdicts hr
  rw [h1] at hok
  obtain ⟨hs, _⟩ := finish_ok hok
  have e : (started env o).solset = none := hb.unused.solset
  rw [e] at a b
  rw [h2]
  have := read_printed none (F64.inf, []) _ b
  rw [← a, hs] at this
  exact this

/-- C104, resumed runs: the set read off the output and the checkpoint is the returned set. -/
theorem C104_returned_resumed {env : Env n} {o : Opt n} {loaded : Option (Except CkErr (Ckpt n))} {c : Ckpt n}
    (hr : Resumes o loaded c) (hne : c.solutionSet ≠ some []) (ht : (o.restore c).targetReached = false)
    {set : List (Sol n)} (hok : (run env o loaded).result = .ok set) :
    readSet (c.solutionSet.getD []) (printed c.solutionSet c.meritThreshold (run env o loaded).final.trace) =
      set := by
  have h3 := resumed_post' (o := (started env o).restore c) env hne ht
  obtain ⟨u, sv, hre⟩ := h3.good.reach
  obtain ⟨a, b⟩ := solset_of_verdicts hre
  rw [run_resumes env o loaded hr] at hok ⊢
  obtain ⟨hs, _⟩ := finish_ok hok
  rw [finish_final]
  have := read_printed c.solutionSet (c.meritThreshold, []) _ b
  rw [show ((started env o).restore c).solset = c.solutionSet from rfl] at a
  rw [← a, hs] at this
  exact this

/-- C104, fresh runs, successful or not: every printed size is that of the set read so far. -/
theorem C104_sizes {env : Env n} {o : Opt n} {loaded : Option (Except CkErr (Ckpt n))} (hb : Built o)
    (hf : Fresh o loaded) {pre post : List (Line n)} {k : Nat}
    (h : printed none F64.inf (run env o loaded).final.trace = pre ++ .size k :: post) :
    k = (readSet [] pre).length := by
  obtain ⟨_, h2, h3⟩ := freshAll (env := env) hb hf
  obtain ⟨u, sv, hr⟩ := h3.good.reach
  obtain ⟨_, b⟩ := solset_of_verdicts hr
  rw [show (started env o).solset = none from hb.unused.solset] at b
  rw [h2] at h
  exact sizes_printed none _ _ b h

/-- C104, resumed runs: every printed size is that of the set read so far. -/
theorem C104_sizes_resumed {env : Env n} {o : Opt n} {loaded : Option (Except CkErr (Ckpt n))} {c : Ckpt n}
    (hr : Resumes o loaded c) (hne : c.solutionSet ≠ some []) (ht : (o.restore c).targetReached = false)
    {pre post : List (Line n)} {k : Nat}
    (h : printed c.solutionSet c.meritThreshold (run env o loaded).final.trace = pre ++ .size k :: post) :
    k = (readSet (c.solutionSet.getD []) pre).length := by
  have h3 := resumed_post' (o := (started env o).restore c) env hne ht
  obtain ⟨u, sv, hre⟩ := h3.good.reach
  obtain ⟨_, b⟩ := solset_of_verdicts hre
  rw [run_resumes env o loaded hr, finish_final] at h
  exact sizes_printed c.solutionSet _ _ b h

/-- C104, what is right about the printed thresholds of a fresh run: one line for each relaxation, with its iteration and
the threshold in force before. Missing: the second number is not the new threshold (`C104_adjusting_violated`). -/
theorem C104_adjusting_partial {env : Env n} {o : Opt n} {loaded : Option (Except CkErr (Ckpt n))} (hb : Built o)
    (hf : Fresh o loaded) (it : Nat) (old : F64) :
    (∃ new, Line.adjusting it old new ∈ printed none F64.inf (run env o loaded).final.trace) ↔
      ∃ pre t post, (run env o loaded).final.trace = pre ++ .relaxed it t :: post ∧
        old = inForce F64.inf pre ∧
        t = old.add (o.params.thresholdFactor.mul (F64.one.add old.abs)) := by
  simp only [adjusting_printed]
  constructor
  · rintro ⟨new, pre, t, post, hx, a, _⟩
    exact ⟨pre, t, post, hx, a, by rw [a]; exact ((C97_threshold hb hf).1.relaxations pre it t post hx).1⟩
  · rintro ⟨pre, t, post, hx, a, _⟩
    exact ⟨_, pre, t, post, hx, a, rfl⟩

/-- C104 fails for the new threshold: the demo run raises it from 1 to 1.4 and prints `from 1 to 1.1`. -/
theorem C104_adjusting_violated :
    ∃ (old new t : F64) (pre post : List (Event 1)),
      Line.adjusting 3 old new ∈ printed none F64.inf (run (env stay) demo none).final.trace ∧
      (run (env stay) demo none).final.trace = pre ++ .relaxed 3 t :: post ∧ old = inForce F64.inf pre ∧
      old = F64.one ∧ new = F64.lit 11 10 ∧ t = F64.lit 14 10 ∧ F64.lt new t = true := by
  have hsplit : (run (env stay) demo none).final.trace =
      (run (env stay) demo none).final.trace.take 11 ++
        .relaxed 3 (F64.lit 14 10) :: (run (env stay) demo none).final.trace.drop 12 := by
    have h : (run (env stay) demo none).final.trace.drop 11 =
        .relaxed 3 (F64.lit 14 10) :: (run (env stay) demo none).final.trace.drop 12 := by
      have h1 : ((run (env stay) demo none).final.trace[11]?.bind fun e => match e with
          | .relaxed i t => some (i, t)
          | _ => none) = some (3, F64.lit 14 10) := by decide +kernel
      cases hg : (run (env stay) demo none).final.trace[11]? with
      | none => rw [hg] at h1; cases h1
      | some e =>
        rw [hg] at h1
        obtain ⟨hl, he⟩ := List.getElem?_eq_some_iff.1 hg
        rw [List.drop_eq_getElem_cons hl, he]
        cases e with
        | relaxed i t =>
          simp only [Option.bind_some, Option.some.injEq, Prod.mk.injEq] at h1
          rw [h1.1, h1.2]
        | _ => cases h1
    rw [← h, List.take_append_drop]
  have h0 : inForce F64.inf ((run (env stay) demo none).final.trace.take 11) = F64.one := by decide +kernel
  refine ⟨F64.one, F64.lit 11 10, F64.lit 14 10, _, _, ?_, hsplit, h0.symm, rfl, rfl, rfl, by decide +kernel⟩
  rw [adjusting_printed]
  exact ⟨_, _, _, hsplit, h0.symm, by decide +kernel⟩

/-- A fresh run prints sizes 1 and 2 and returns two solutions, read off its output. -/
example : (exOpt.map fun o =>
    ((run (env stay) o none).result.toOption.map (·.map Sol.objective),
      (readSet [] (printed none F64.inf (run (env stay) o none).final.trace)).map Sol.objective,
      (printed none F64.inf (run (env stay) o none).final.trace).filterMap fun l => match l with
        | .size k => some k
        | _ => none)) = some (some [num 1, num 4], [num 1, num 4], [1, 2]) := by decide +kernel

example : Built demo ∧ Fresh demo none ∧ ∃ set, (run (env stay) demo none).result = .ok set :=
  ⟨demo_built, Or.inl rfl, succeeds_iff (by decide +kernel)⟩

/-- The hypotheses about resumed runs hold for every checkpoint of this parallel run. -/
example : savedIn (run wideEnv wideSaving none).final.trace ≠ [] ∧
    ∀ c ∈ savedIn (run wideEnv wideSaving none).final.trace,
      Resumes wideSaving (some (.ok c)) c ∧ ((c.solutionSet.getD []).isEmpty = false ∧
        (wideSaving.restore c).targetReached = false ∧
        succeeds (run wideEnv wideSaving (some (.ok c))) = true) :=
  ⟨by decide +kernel, fun c hc => ⟨⟨rfl, _, rfl, rfl⟩, by revert c; decide +kernel⟩⟩

end GS.Props
