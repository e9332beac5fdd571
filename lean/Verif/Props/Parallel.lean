/- Property C35: distance filtering in parallel stage 2. -/
import Verif.Lemmas.Early
import Verif.Props.Batch

namespace GS.Props
open GS F64 Witness
variable {n : Nat}

/-- Part of C35, for every batch size: a stage-2 local search never starts within the distance factor of
the solution of stage 1, or of any solution found in an earlier batch.  (Iteration `i` belongs to batch
`i / k` for batch size `k`.)  The full property, which also covers solutions found in the same batch, is
false: `C35_violated`; it holds for sequential runs, where every batch has one iteration (`C27`). -/
theorem C35_earlier_batches_partial {env : Env n} {o : Opt n}
    {loaded : Option (Except CkErr (Ckpt n))} (hb : Built o) (hf : Fresh o loaded)
    {pre post : List (Event n)} {i : Nat} {p : Pt n} {r : Except LErr (Sol n)}
    (h : (run env o loaded).final.trace = pre ++ .search (some i) p r :: post) :
    (∀ q s, Event.search none q (.ok s) ∈ pre → Far o.params.distanceFactor p [s]) ∧
    (∀ j q s, Event.search (some j) q (.ok s) ∈ pre →
      j / o.effBatch env.threads 0 < i / o.effBatch env.threads 0 →
      Far o.params.distanceFactor p [s]) := by
  rw [run_fresh env o loaded hf, finish_final] at h
  have hne : (started env o).solset ≠ some [] := by
    show o.solset ≠ some []
    rw [hb.unused.solset]
    exact fun h => by cases h
  have hE := (fresh_early hne pre i p r post h).2
  rw [show (started env o).dist.params.distanceFactor = o.params.distanceFactor from by
    show o.dist.params.distanceFactor = _
    rw [hb.unused.dparams]] at hE
  refine ⟨fun q s hs => hE none q s hs (fun _ h => by cases h), fun j q s hs hlt => ?_⟩
  refine hE (some j) q s hs fun j' hj => ?_
  cases hj
  exact hlt

/-- The same for resumed runs, where moreover no search starts near a solution of the checkpoint's
distance filter; iterations are counted from the checkpointed one. -/
theorem C35_resumed_partial {env : Env n} {o : Opt n} {loaded : Option (Except CkErr (Ckpt n))}
    {c : Ckpt n} (hr : Resumes o loaded c) (hne : c.solutionSet ≠ some [])
    {pre post : List (Event n)} {i : Nat} {p : Pt n} {r : Except LErr (Sol n)}
    (h : (run env o loaded).final.trace = pre ++ .search (some i) p r :: post) :
    Far o.dist.params.distanceFactor p c.distanceFilterSolutions ∧
    (∀ j q s, Event.search (some j) q (.ok s) ∈ pre →
      (j - c.currentIteration) / (o.restore c).effBatch env.threads c.currentIteration <
        (i - c.currentIteration) / (o.restore c).effBatch env.threads c.currentIteration →
      Far o.dist.params.distanceFactor p [s]) := by
  rw [run_resumes env o loaded hr, finish_final] at h
  obtain ⟨h1, h2⟩ := resumed_early (o := (started env o).restore c) hne pre i p r post h
  refine ⟨h1, fun j q s hs hlt => ?_⟩
  refine h2 (some j) q s hs fun j' hj => ?_
  cases hj
  exact hlt

/-- Some search starts close to a solution found by the search of an earlier iteration (`seen`). -/
def nearSearch (df : F64) : List (Nat × Sol n) → List (Event n) → Bool
  | _, [] => false
  | seen, e :: t =>
    match e with
    | .search (some i) p r =>
      seen.any (fun s => s.1 < i && !F64.gt (dist2 p s.2.point) (df.mul df)) ||
        nearSearch df (match r with | .ok s => (i, s) :: seen | .error _ => seen) t
    | _ => nearSearch df seen t

theorem nearSearch_spec {df : F64} {seen : List (Nat × Sol n)} {tr past : List (Event n)}
    (hs : ∀ x ∈ seen, ∃ q, Event.search (some x.1) q (.ok x.2) ∈ past)
    (h : nearSearch df seen tr = true) :
    ∃ pre i p r post j q s, past ++ tr = pre ++ .search (some i) p r :: post ∧
      Event.search (some j) q (.ok s) ∈ pre ∧ j < i ∧ ¬ Far df p [s] := by
  induction tr generalizing seen past with
  | nil => cases h
  | cons e t ih =>
    have step : ∀ seen', (∀ x ∈ seen', ∃ q, Event.search (some x.1) q (.ok x.2) ∈ past ++ [e]) →
        nearSearch df seen' t = true →
        ∃ pre i p r post j q s, past ++ e :: t = pre ++ .search (some i) p r :: post ∧
          Event.search (some j) q (.ok s) ∈ pre ∧ j < i ∧ ¬ Far df p [s] := by
      intro seen' hs' h'
      have := ih hs' h'
      simpa using this
    have hs1 : ∀ x ∈ seen, ∃ q, Event.search (some x.1) q (.ok x.2) ∈ past ++ [e] := by
      intro x hx
      obtain ⟨q, hq⟩ := hs x hx
      exact ⟨q, by simp [hq]⟩
    unfold nearSearch at h
    split at h
    · rename_i i p r
      rw [Bool.or_eq_true] at h
      rcases h with h | h
      · rw [List.any_eq_true] at h
        obtain ⟨x, hx, hc⟩ := h
        rw [Bool.and_eq_true, decide_eq_true_eq, Bool.not_eq_true'] at hc
        obtain ⟨q, hq⟩ := hs x hx
        refine ⟨past, i, p, r, t, x.1, q, x.2, rfl, hq, hc.1, fun hf => ?_⟩
        have := hf x.2 (by simp)
        rw [hc.2] at this
        cases this
      · refine step _ ?_ h
        cases r with
        | error e => exact hs1
        | ok s =>
          intro x hx
          rw [List.mem_cons] at hx
          rcases hx with rfl | hx
          · exact ⟨p, by simp⟩
          · exact hs1 x hx
    · exact step seen hs1 h

theorem nearSearch_trace {df : F64} {tr : List (Event n)} (h : nearSearch df [] tr = true) :
    ∃ pre i p r post j q s, tr = pre ++ .search (some i) p r :: post ∧
      Event.search (some j) q (.ok s) ∈ pre ∧ j < i ∧ ¬ Far df p [s] := by
  have := nearSearch_spec (past := []) (fun _ h => by cases h) h
  rwa [List.nil_append] at this

/-- With default settings on four threads, a search starts from a point that lies within the distance
factor of the solution found by the search of an earlier iteration of the same batch. -/
theorem C35_violated :
    ∃ (e : Env 1) (o : Opt 1), Opt.new flat (params 4 6 0) = .ok o ∧ e.rt.Valid ∧
      ∃ pre i p r post j q s, (run e o none).final.trace = pre ++ .search (some i) p r :: post ∧
        Event.search (some j) q (.ok s) ∈ pre ∧ j < i ∧ ¬ Far o.params.distanceFactor p [s] :=
  ⟨driftEnv 4, flatOpt, mk_new flat_ok, rot_valid,
    nearSearch_trace (by decide +kernel)⟩

/-- The hypothesis of `C35_earlier_batches_partial` is met: in a run with batch size two the searches of iterations 0 and
2, in different batches, both take place. -/
example : Built flatOpt ∧ flatOpt.effBatch 4 0 = 2 ∧
    0 ∈ (searched (run { env drift with threads := 4 } flatOpt none).final.trace).map Prod.fst ∧
    2 ∈ (searched (run { env drift with threads := 4 } flatOpt none).final.trace).map Prod.fst :=
  ⟨mk_built flat_ok, by decide +kernel, by decide +kernel, by decide +kernel⟩

end GS.Props
