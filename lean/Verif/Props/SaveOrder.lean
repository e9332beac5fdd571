/- C92: a checkpoint's number and the candidates that are still to be searched. -/
import Verif.Lemmas.SaveOrder
import Verif.Props.Saves

namespace GS.Props
open GS F64 GS.Witness
variable {n : Nat}

theorem order_at {d : Nat} {tr pre post : List (Event n)} (h : SaveOrder d tr) {it j : Nat} {c : Ckpt n}
    {p : Pt n} {r : Except LErr (Sol n)} (htr : tr = pre ++ .saved it c :: post)
    (hs : .search (some j) p r ∈ post) : it < j + d := by
  subst htr
  unfold SaveOrder at h
  rw [tags_append, List.pairwise_append] at h
  have h2 := h.2.1
  rw [show tags (Event.saved it c :: post) = (true, it) :: tags post from rfl, List.pairwise_cons] at h2
  exact h2.1 (false, j) (List.mem_filterMap.2 ⟨_, hs, rfl⟩) rfl rfl

/-- C92 in sequential runs, fresh or resumed, successful or not: when a checkpoint has been written, all
local searches still to be started belong to later iterations.  So nothing is lost by resuming at the
checkpoint's iteration after a crash. -/
theorem C92_sequential {env : Env n} {o : Opt n} {loaded : Option (Except CkErr (Ckpt n))} {st : Nat}
    (hseq : SeqFrom env o loaded st) {pre post : List (Event n)} {it j : Nat} {c : Ckpt n} {p : Pt n}
    {r : Except LErr (Sol n)} (h : (run env o loaded).final.trace = pre ++ .saved it c :: post)
    (hs : .search (some j) p r ∈ post) : it < j := by
  cases hseq with
  | fresh hb hf hq =>
    rw [run_fresh env o loaded hf, finish_final] at h
    obtain ⟨t, a, b⟩ := body_fresh_order env ⟨started env o, 0, 0, []⟩
    have he : (started env o).effBatch env.threads 0 = 1 := hq.eff
    rw [show lag ((⟨started env o, 0, 0, []⟩ : M n).opt.effBatch env.threads 0) = 0 by
      show lag ((started env o).effBatch env.threads 0) = 0
      rw [he]; rfl] at b
    rw [a] at h
    exact order_at b h hs
  | @resumed c0 hr hq =>
    rw [run_resumes env o loaded hr, finish_final] at h
    obtain ⟨t, a, b⟩ := body_resumed_order env ⟨(started env o).restore c0, 0, 0, []⟩
    have he : ((started env o).restore c0).effBatch env.threads c0.currentIteration = 1 := hq.eff
    rw [show lag ((⟨(started env o).restore c0, 0, 0, []⟩ : M n).opt.effBatch env.threads
        (⟨(started env o).restore c0, 0, 0, []⟩ : M n).opt.curIter) = 0 by
      show lag (((started env o).restore c0).effBatch env.threads c0.currentIteration) = 0
      rw [he]; rfl] at b
    rw [a] at h
    exact order_at b h hs

theorem lag_le (e : Nat) : lag e ≤ e := by unfold lag; split <;> omega

/-- C92 in any fresh run, in particular in parallel ones: a local search started after a checkpoint was
written belongs to an iteration less than one batch before the checkpoint's.
Missing: that it belongs to a later iteration; see `C92_violated`. -/
theorem C92_fresh_partial {env : Env n} {o : Opt n} {loaded : Option (Except CkErr (Ckpt n))}
    (hf : Fresh o loaded) {pre post : List (Event n)} {it j : Nat} {c : Ckpt n} {p : Pt n}
    {r : Except LErr (Sol n)} (h : (run env o loaded).final.trace = pre ++ .saved it c :: post)
    (hs : .search (some j) p r ∈ post) : it < j + o.effBatch env.threads 0 := by
  rw [run_fresh env o loaded hf, finish_final] at h
  obtain ⟨t, a, b⟩ := body_fresh_order env ⟨started env o, 0, 0, []⟩
  rw [a] at h
  have h1 := order_at b h hs
  have h2 := lag_le (o.effBatch env.threads 0)
  have h3 : it < j + lag (o.effBatch env.threads 0) := h1
  omega

/-- The same for resumed runs. -/
theorem C92_resumed_partial {env : Env n} {o : Opt n} {loaded : Option (Except CkErr (Ckpt n))}
    {c0 : Ckpt n} (hr : Resumes o loaded c0) {pre post : List (Event n)} {it j : Nat} {c : Ckpt n}
    {p : Pt n} {r : Except LErr (Sol n)}
    (h : (run env o loaded).final.trace = pre ++ .saved it c :: post)
    (hs : .search (some j) p r ∈ post) :
    it < j + (o.restore c0).effBatch env.threads c0.currentIteration := by
  rw [run_resumes env o loaded hr, finish_final] at h
  obtain ⟨t, a, b⟩ := body_resumed_order env ⟨(started env o).restore c0, 0, 0, []⟩
  rw [a] at h
  have h1 := order_at b h hs
  have h2 := lag_le ((o.restore c0).effBatch env.threads c0.currentIteration)
  have h3 : it < j + lag ((o.restore c0).effBatch env.threads c0.currentIteration) := h1
  omega

/-- Local search whose result gets better towards the upper bound. -/
def climb (_ : SolverType) (_ : SolverConfig) (p : Pt 1) : Except LErr (Sol 1 × Nat) :=
  .ok (⟨p, (num 4).sub (p 0)⟩, 1)

/-- Environment that leaves the reference points in their order. -/
def inOrder : Env 1 := { env climb with rt := { rt 1 with shuffle := fun _ l => l } }

/-- A parallel run in one batch of four, writing a checkpoint after every iteration. -/
def batched : Opt 1 := (demo.withCheckpointing ⟨"run", 1, true, true⟩).setBatch 4

theorem batched_built : Built batched := Built.batch 4 (Built.checkpointing _ demo_built)

/-- Cut a trace at the checkpoint with the given number, if there is one. -/
def cutAt (k : Nat) : List (Event n) → Option (List (Event n) × Ckpt n × List (Event n))
  | [] => none
  | e :: l =>
    match e with
    | .saved it c =>
      if it = k then some ([], c, l) else (cutAt k l).map fun x => (e :: x.1, x.2)
    | _ => (cutAt k l).map fun x => (e :: x.1, x.2)

theorem cutAt_some {k : Nat} {tr pre post : List (Event n)} {c : Ckpt n}
    (h : cutAt k tr = some (pre, c, post)) : tr = pre ++ .saved k c :: post := by
  induction tr generalizing pre with
  | nil => cases h
  | cons e l ih =>
    have step : (cutAt k l).map (fun x => (e :: x.1, x.2)) = some (pre, c, post) →
        e :: l = pre ++ .saved k c :: post := by
      intro h
      rw [Option.map_eq_some_iff] at h
      obtain ⟨⟨a, b, d⟩, h1, h2⟩ := h
      cases h2
      rw [ih h1]
      rfl
    unfold cutAt at h
    split at h
    · split at h
      · rename_i hk
        cases h
        rw [hk]
        rfl
      · exact step h
    · exact step h

/-- The results of the local searches of iteration `j`. -/
def foundAt (j : Nat) (tr : List (Event n)) : List (Pt n × Sol n) :=
  tr.filterMap fun e => match e with
    | .search (some i) p (.ok s) => if i = j then some (p, s) else none
    | _ => none

theorem foundAt_mem {j : Nat} {tr : List (Event n)} {p : Pt n} {s : Sol n} (h : (p, s) ∈ foundAt j tr) :
    .search (some j) p (.ok s) ∈ tr := by
  unfold foundAt at h
  rw [List.mem_filterMap] at h
  obtain ⟨e, he, h⟩ := h
  split at h
  · split at h
    · rename_i hj
      cases h; subst hj; exact he
    · cases h
  · cases h

/-- What a run returns. -/
def outcomeOf (r : RunResult n) : Option (List (Sol n)) :=
  match r.result with | .ok s => some s | .error _ => none

/-- The local search of iteration 2 that is still to come, its result, which the run returns, and what is
returned after a resume from the checkpoint. -/
def lost (x : List (Event 1) × Ckpt 1 × List (Event 1)) : Option (Pt 1 × Sol 1 × Sol 1) :=
  match foundAt 2 x.2.2, outcomeOf (run inOrder batched none),
      outcomeOf (run inOrder batched (some (.ok x.2.1))) with
  | [(p, s)], some [s1], some [s'] =>
    if s1 = s ∧ F64.lt s.objective s'.objective = true ∧
      2 ∉ (searched (run inOrder batched (some (.ok x.2.1))).final.trace).map Prod.fst then
      some (p, s, s') else none
  | _, _, _ => none

theorem lost_some {x : List (Event 1) × Ckpt 1 × List (Event 1)} {p : Pt 1} {s s' : Sol 1}
    (h : lost x = some (p, s, s')) : .search (some 2) p (.ok s) ∈ x.2.2 ∧
      outcomeOf (run inOrder batched none) = some [s] ∧
      outcomeOf (run inOrder batched (some (.ok x.2.1))) = some [s'] ∧
      F64.lt s.objective s'.objective = true ∧
      2 ∉ (searched (run inOrder batched (some (.ok x.2.1))).final.trace).map Prod.fst := by
  unfold lost at h
  split at h
  · rename_i h1 h2 h3
    split at h
    · rename_i hc
      cases h
      obtain ⟨rfl, h4, h5⟩ := hc
      exact ⟨foundAt_mem (by rw [h1]; simp), h2, h3, h4, h5⟩
    · cases h
  · cases h

/-- C92 does not hold in parallel runs: the rejected candidates of a batch are finished, and checkpoints
written under their numbers, before the local searches of the batch are started.  In this run the
checkpoint of iteration 3 is written before the local search of iteration 2; a crash between the two and a
resume from that checkpoint lose the candidate of iteration 2, and with it the solution that the
uninterrupted run returns. -/
theorem C92_violated : ∃ (e : Env 1) (o : Opt 1) (pre post : List (Event 1)) (it j : Nat) (c : Ckpt 1)
    (p : Pt 1) (s s' : Sol 1), Built o ∧ (run e o none).final.trace = pre ++ .saved it c :: post ∧
    .search (some j) p (.ok s) ∈ post ∧ j < it ∧
    Resumes o (some (.ok c)) c ∧
    outcomeOf (run e o none) = some [s] ∧
    outcomeOf (run e o (some (.ok c))) = some [s'] ∧ F64.lt s.objective s'.objective = true ∧
    j ∉ (searched (run e o (some (.ok c))).final.trace).map Prod.fst := by
  have h : (cutAt 3 (run inOrder batched none).final.trace).isSome = true := by decide +kernel
  have hf : ∀ x, cutAt 3 (run inOrder batched none).final.trace = some x →
      (lost x).isSome = true := by
    intro x hx
    have : ((cutAt 3 (run inOrder batched none).final.trace).bind lost).isSome = true := by decide +kernel
    rw [hx] at this
    exact this
  obtain ⟨⟨pre, c, post⟩, hx⟩ := Option.isSome_iff_exists.1 h
  obtain ⟨⟨p, s, s'⟩, hl⟩ := Option.isSome_iff_exists.1 (hf _ hx)
  obtain ⟨h1, h2, h3, h4, h5⟩ := lost_some hl
  exact ⟨inOrder, batched, pre, post, 3, 2, c, p, s, s', batched_built, cutAt_some hx, h1, by omega,
    ⟨rfl, _, rfl, rfl⟩, h2, h3, h4, h5⟩

/-- A sequential run in which a search follows a checkpoint; the hypotheses of C92 are met. -/
def stepped : Opt 1 := batched.setParallel false

example : SeqFrom inOrder stepped none 0 ∧ (cutAt 1 (run inOrder stepped none).final.trace).isSome = true ∧
    ((cutAt 1 (run inOrder stepped none).final.trace).map fun x => (foundAt 2 x.2.2).length) = some 1 :=
  ⟨.fresh (Built.parallel false batched_built) (Or.inl rfl) (Or.inl rfl), by decide +kernel,
    by decide +kernel⟩
/-- And a parallel one, where the bound of `C92_fresh_partial` is met. -/
example : Fresh batched none ∧ batched.effBatch inOrder.threads 0 = 4 ∧
    ((cutAt 3 (run inOrder batched none).final.trace).map fun x => (foundAt 2 x.2.2).length) = some 1 :=
  ⟨Or.inl rfl, by decide +kernel, by decide +kernel⟩

end GS.Props
