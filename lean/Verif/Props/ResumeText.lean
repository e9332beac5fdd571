/- C116: what is printed when resuming with other parameters. -/
import Verif.Model.ResumeText
import Verif.Props.Resume

namespace GS.Props
open GS GS.Witness
variable {n : Nat}

/-! ### C116: output when resuming with other parameters -/

/-- Output changes nothing: both functions do the same with and without it. -/
theorem C116_harmless (env : Env n) (verbose : Bool) (o : Opt n) (loaded : Option (Except CkErr (Ckpt n)))
    (path : String) (file : Except CkErr (Ckpt n)) (new : Params) :
    (o.resumeWithText env verbose loaded new).1 = o.resumeWith env loaded new ∧
    (o.resumeFromText verbose path file new).1 = o.resumeFrom file new := by
  constructor
  · unfold Opt.resumeWithText Opt.resumeWith
    cases o.ckpt with
    | none => rfl
    | some cfg =>
      cases loaded with
      | none => rfl
      | some l =>
        cases l with
        | error e => rfl
        | ok c =>
          dsimp only
          by_cases h1 : new.populationSize > c.params.populationSize
          · rw [if_pos (by omega), if_pos h1, if_pos h1]
            cases o.expand env c.referenceSet c.params.populationSize new.populationSize <;> rfl
          · rw [if_neg h1, if_neg h1]
            split <;> rfl
  · unfold Opt.resumeFromText Opt.resumeFrom
    cases o.ckpt with
    | none => rfl
    | some cfg => cases file <;> rfl

/-- Nothing is printed unless a checkpoint is taken over. -/
theorem C116_silent (env : Env n) (verbose : Bool) (o : Opt n) (loaded : Option (Except CkErr (Ckpt n)))
    (path : String) (file : Except CkErr (Ckpt n)) (new : Params) :
    ((∀ o', o.resumeWith env loaded new ≠ .ok (o', true)) → (o.resumeWithText env verbose loaded new).2 = []) ∧
    ((o.ckpt = none ∨ ∃ e, o.resumeFrom file new = .error e) → (o.resumeFromText verbose path file new).2 = []) := by
  constructor
  · intro h
    rw [← (C116_harmless env verbose o loaded path file new).1] at h
    unfold Opt.resumeWithText at h ⊢
    cases hk : o.ckpt with
    | none => rfl
    | some cfg =>
      rw [hk] at h
      cases loaded with
      | none => rfl
      | some l =>
        cases l with
        | error e => rfl
        | ok c =>
          dsimp only at h ⊢
          by_cases h0 : new.populationSize ≠ c.params.populationSize
          · rw [if_pos h0] at h ⊢
            by_cases h1 : new.populationSize > c.params.populationSize
            · rw [if_pos h1] at h ⊢
              cases hx : o.expand env c.referenceSet c.params.populationSize new.populationSize with
              | error e => rfl
              | ok ref => rw [hx] at h; exact absurd rfl (h _)
            · rw [if_neg h1] at h; exact absurd rfl (h _)
          · rw [if_neg h0] at h; exact absurd rfl (h _)
  · intro h
    unfold Opt.resumeFrom at h
    unfold Opt.resumeFromText
    cases hk : o.ckpt with
    | none => rfl
    | some cfg =>
      rw [hk] at h
      cases file with
      | error e => rfl
      | ok c =>
        rcases h with h | ⟨e, h⟩
        · cases h
        · cases h

/-- Without `verbose` the only line is the warning that the population gets smaller, and it is always given. -/
theorem C116_warning (env : Env n) (o o' : Opt n) (c : Ckpt n) (new : Params)
    (h : o.resumeWith env (some (.ok c)) new = .ok (o', true)) :
    (o.resumeWithText env false (some (.ok c)) new).2 =
      if new.populationSize < c.params.populationSize then
        [.warning new.populationSize c.params.populationSize c.params.populationSize]
      else [] := by
  obtain ⟨⟨cfg, hk⟩, _⟩ := resumeWith_eq h
  unfold Opt.resumeWith at h
  unfold Opt.resumeWithText
  rw [hk] at h ⊢
  dsimp only at h ⊢
  by_cases h0 : new.populationSize ≠ c.params.populationSize
  · rw [if_pos h0]
    by_cases h1 : new.populationSize > c.params.populationSize
    · rw [if_pos h1] at h ⊢
      rw [if_neg (show ¬ new.populationSize < c.params.populationSize by omega)]
      cases hx : o.expand env c.referenceSet c.params.populationSize new.populationSize with
      | error e => rfl
      | ok ref => rfl
    · rw [if_neg h1, if_pos (show new.populationSize < c.params.populationSize by omega)]
      rfl
  · rw [if_neg h0, if_neg (show ¬ new.populationSize < c.params.populationSize by omega)]
    rfl

/-- With `verbose` the last line gives the iterations of the checkpoint and of the new parameters. If the population
changes, the lines before tell the sizes of the reference set before and after. They are the true sizes provided that the
saved reference set has as many points as the population; otherwise see `C116_size_violated`. -/
theorem C116_lines_partial (env : Env n) (hv : env.rt.Valid) (o o' : Opt n) (c : Ckpt n) (new : Params)
    (hs : c.referenceSet.length = c.params.populationSize)
    (h : o.resumeWith env (some (.ok c)) new = .ok (o', true)) :
    ∃ before after, c.referenceSet.length = before ∧ o'.curRef.map List.length = some after ∧
      (o.resumeWithText env true (some (.ok c)) new).2 =
        (if before < after then [.expanded before after] else []) ++
        (if new.populationSize < c.params.populationSize then
          [.warning new.populationSize c.params.populationSize after, .keeping after] else []) ++
        [.resumed c.params.iterations o'.params.iterations] := by
  obtain ⟨⟨cfg, hk⟩, _⟩ := resumeWith_eq h
  obtain ⟨c', hc', hp, -⟩ := C50_state_partial env o o' _ new h
  by_cases h1 : c.params.populationSize < new.populationSize
  · obtain ⟨added, hr, hl, -, -⟩ := C51_expand_partial env hv o o' c new h1 h
    have hl := hl (by omega)
    refine ⟨_, new.populationSize, rfl, by rw [hr, Option.map_some, hl], ?_⟩
    rw [hp, hs, if_pos h1, if_neg (show ¬ new.populationSize < c.params.populationSize by omega)]
    unfold Opt.resumeWith at h
    unfold Opt.resumeWithText
    rw [hk] at h ⊢
    dsimp only at h ⊢
    rw [if_pos h1] at h
    rw [if_pos (by omega), if_pos h1]
    cases hx : o.expand env c.referenceSet c.params.populationSize new.populationSize with
    | error e => rw [hx] at h; cases h
    | ok ref => rfl
  · have hr := C51_not_larger env o o' c new (by omega) h
    refine ⟨_, c.referenceSet.length, rfl, by rw [hr, Option.map_some], ?_⟩
    rw [hp, hs, if_neg (Nat.lt_irrefl _)]
    unfold Opt.resumeWithText
    rw [hk]
    dsimp only
    by_cases h0 : new.populationSize ≠ c.params.populationSize
    · rw [if_pos h0, if_neg (show ¬ new.populationSize > c.params.populationSize by omega),
        if_pos (show new.populationSize < c.params.populationSize by omega)]
      rfl
    · rw [if_neg h0, if_neg (show ¬ new.populationSize < c.params.populationSize by omega)]
      rfl

/-- `resume_from_checkpoint_with_params` names the file and the iterations before and after. -/
theorem C116_file (verbose : Bool) (o o' : Opt n) (path : String) (c : Ckpt n) (new : Params) (hk : o.ckpt ≠ none)
    (h : o.resumeFrom (.ok c) new = .ok o') :
    (o.resumeFromText verbose path (.ok c) new).2 =
      if verbose then [.resumedFrom path c.params.iterations o'.params.iterations] else [] := by
  unfold Opt.resumeFrom at h
  unfold Opt.resumeFromText
  cases hc : o.ckpt with
  | none => exact absurd hc hk
  | some cfg =>
    rw [hc] at h
    cases h
    rfl

/-- The lines of a call with `verbose`. -/
def told (c : Ckpt 1) (new : Params) : List ResumeMsg := (seeded.resumeWithText (env stay) true (some (.ok c)) new).2

/-- With custom points the reference set in a checkpoint can be larger than the population. Then the sizes are wrong: from
six to seven points is announced, but there were eight before and there are eight after. -/
theorem C116_size_violated : ∃ (env : Env 1) (o : Opt 1) (c : Ckpt 1) (it : Nat) (new : Params),
    Built o ∧ Event.saved it c ∈ (run env o none).final.trace ∧
    (o.resumeWithText env true (some (.ok c)) new).2 = [.expanded 6 7, .resumed 4 7] ∧
    c.referenceSet.length = 8 ∧ refSize (o.resumeWith env (some (.ok c)) new) = some 8 := by
  obtain ⟨c, hc, h1, h2⟩ := both (x := firstSaved (run (env stay) seeded none))
    (p := fun c => decide (told c (params 7 7 0) = [.expanded 6 7, .resumed 4 7]))
    (q := fun c => decide (c.referenceSet.length = 8 ∧
      refSize (seeded.resumeWith (env stay) (some (.ok c)) (params 7 7 0)) = some 8)) (by decide +kernel)
  obtain ⟨it, hit⟩ := firstSaved_mem hc
  exact ⟨env stay, seeded, c, it, params 7 7 0, seeded_built, hit, of_decide_eq_true h1,
    (of_decide_eq_true h2).1, (of_decide_eq_true h2).2⟩

/-- The size that is said to be kept is wrong too: six instead of eight points. -/
theorem C116_kept_violated : ∃ (env : Env 1) (o : Opt 1) (c : Ckpt 1) (it : Nat) (new : Params),
    Built o ∧ Event.saved it c ∈ (run env o none).final.trace ∧
    (o.resumeWithText env true (some (.ok c)) new).2 = [.warning 5 6 6, .keeping 6, .resumed 4 4] ∧
    refSize (o.resumeWith env (some (.ok c)) new) = some 8 := by
  obtain ⟨c, hc, h1, h2⟩ := both (x := firstSaved (run (env stay) seeded none))
    (p := fun c => decide (told c (params 4 5 0) = [.warning 5 6 6, .keeping 6, .resumed 4 4]))
    (q := fun c => decide (refSize (seeded.resumeWith (env stay) (some (.ok c)) (params 4 5 0)) = some 8))
    (by decide +kernel)
  obtain ⟨it, hit⟩ := firstSaved_mem hc
  exact ⟨env stay, seeded, c, it, params 4 5 0, seeded_built, hit, of_decide_eq_true h1, of_decide_eq_true h2⟩

/-- "Iterations changed from 4 to 4": the line does not depend on whether anything changes. -/
theorem C116_unchanged_violated (env : Env n) (o o' : Opt n) (c : Ckpt n)
    (h : o.resumeWith env (some (.ok c)) c.params = .ok (o', true)) :
    (o.resumeWithText env true (some (.ok c)) c.params).2 = [.resumed c.params.iterations c.params.iterations] := by
  obtain ⟨⟨cfg, hk⟩, _⟩ := resumeWith_eq h
  unfold Opt.resumeWithText
  rw [hk]
  dsimp only
  rw [if_neg (by simp)]
  rfl

example : sixPoints.referenceSet.length = sixPoints.params.populationSize ∧
    (∃ o', resuming.resumeWith (env stay) (some (.ok sixPoints)) (params 8 9 0) = .ok (o', true)) ∧
    (resuming.resumeWithText (env stay) true (some (.ok sixPoints)) (params 8 9 0)).2 =
      [.expanded 6 9, .resumed sixPoints.params.iterations 8] :=
  ⟨by decide +kernel, tookOver_iff (enlarge true), by decide +kernel⟩

example : (∃ o', resuming.resumeWith (env stay) (some (.ok sixPoints)) (params 8 5 0) = .ok (o', true)) ∧
    (resuming.resumeWithText (env stay) false (some (.ok sixPoints)) (params 8 5 0)).2 = [.warning 5 6 6] ∧
    (∀ o', resuming.resumeWith (env stay) none (params 8 5 0) ≠ .ok (o', true)) ∧
    resuming.ckpt ≠ none ∧ (∃ o', resuming.resumeFrom (.ok sixPoints) (params 8 5 0) = .ok o') :=
  ⟨tookOver_iff (by decide +kernel), by decide +kernel, (fun o' h => by
    obtain ⟨c, hc, _⟩ := C50_state_partial _ _ _ _ _ h
    cases hc), (fun h => absurd (congrArg Option.isSome h) (by decide +kernel)), ⟨_, rfl⟩⟩

example : ∃ o', resuming.resumeWith (env stay) (some (.ok sixPoints)) sixPoints.params = .ok (o', true) :=
  tookOver_iff (by decide +kernel)

end GS.Props
