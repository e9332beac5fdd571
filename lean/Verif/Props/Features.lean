/- C89: builds with and without the feature `checkpointing`. -/
import Verif.Props.Batch

namespace GS.Props
open GS F64
variable {n : Nat}

/-- Two runs whose environments differ in the build settings only are equal, if the seed arithmetic agrees. -/
theorem run_build {env : Env n} {o : Opt n} {loaded : Option (Except CkErr (Ckpt n))} (checks ck : Bool)
    (h : ∀ o1 r, startOpt env o loaded = .ok (o1, r) →
      (∀ i, i ≤ o1.params.iterations →
        Opt.iterSeed { env with overflowChecks := checks, checkpointing := ck } o1.params.seed i =
          Opt.iterSeed env o1.params.seed i) ∧
      Opt.shuffleSeed { env with overflowChecks := checks, checkpointing := ck } o1.params.seed o1.curIter =
        Opt.shuffleSeed env o1.params.seed o1.curIter) :
    run { env with overflowChecks := checks, checkpointing := ck } o loaded = run env o loaded := by
  let E : Er := { noObs := false, batch := id }
  have hsim := run_sim (E := E) (env := env)
    (env' := { env with overflowChecks := checks, checkpointing := ck }) (o := o)
    (loaded := loaded) ?_ (fun _ => rfl) (fun h => by cases h)
  · rw [loaded_id loaded rfl] at hsim
    have he : E.opt o = o := rfl
    rw [he, Er.st_id rfl rfl rfl rfl] at hsim
    rw [hsim]
    generalize run env o loaded = x
    obtain ⟨f, res⟩ := x
    cases res with
    | ok s => rfl
    | error e => cases e <;> rfl
  · intro o1 r h1
    refine ⟨rfl, rfl, ?_, fun _ => rfl, rfl, rfl, fun _ => ⟨rfl, rfl⟩, h o1 r h1, fun _ => rfl,
      (fun h => by cases h), Or.inl fun _ => ⟨rfl, rfl⟩⟩
    intro ty cfg p
    show _ = Er.lres _ _
    cases env.solve ty cfg p <;> rfl

theorem run_unconfigured (env : Env n) (o : Opt n) (loaded : Option (Except CkErr (Ckpt n)))
    (h : o.ckpt = none) : run env o loaded = run env o none := by
  rw [run_fresh env o loaded (Or.inr fun c hc => by rw [h] at hc; cases hc),
    run_fresh env o none (Or.inl rfl)]

/-- C89 (partial: the first run of an optimizer; with overflow checks the seed must leave room for the
iterations): where checkpointing is not configured, a build with the feature and a build without it give
the same result, the same events and the same final state. -/
theorem C89_same_partial {env : Env n} {o : Opt n} (hb : Built o) (hck : o.ckpt = none)
    (hseed : o.params.seed < 2 ^ 64)
    (hroom : env.overflowChecks = true → o.params.seed + o.params.iterations < 2 ^ 64)
    (loaded : Option (Except CkErr (Ckpt n))) :
    run { env with checkpointing := false } o loaded = run { env with checkpointing := true } o loaded := by
  rw [run_unconfigured _ _ _ hck, run_unconfigured _ o loaded hck]
  refine run_build (env := { env with checkpointing := true }) env.overflowChecks false ?_
  intro o1 r h1
  obtain ⟨-, rfl⟩ := startOpt_fresh h1
  have hp : (Act.obsStart { env with checkpointing := true } ⟨o, 0, 0, []⟩).1.opt.params = o.params := rfl
  have hc : (Act.obsStart { env with checkpointing := true } ⟨o, 0, 0, []⟩).1.opt.curIter = 0 :=
    hb.unused.curIter
  rw [hp, hc]
  constructor
  · intro i hi
    unfold Opt.iterSeed Opt.addU64
    dsimp only
    cases ho : env.overflowChecks with
    | false => rfl
    | true =>
      have := hroom ho
      rw [if_pos (by omega), if_pos (by omega)]
  · unfold Opt.shuffleSeed Opt.addU64
    dsimp only
    rw [if_neg (by simp), if_pos rfl, if_pos (by omega)]
    rfl

/-- C38 without restriction, for builds without the feature: overflow checks make no difference, whatever
the seed and however often the optimizer ran before. -/
theorem C38_without_feature (env : Env n) (o : Opt n) (loaded : Option (Except CkErr (Ckpt n)))
    (checks : Bool) (h : env.checkpointing = false) :
    run { env with overflowChecks := checks } o loaded = run env o loaded := by
  have e : { env with overflowChecks := checks } =
      ({ env with overflowChecks := checks, checkpointing := false } : Env n) := by rw [← h]
  rw [e]
  refine run_build checks false fun o1 r _ => ⟨fun i _ => ?_, ?_⟩
  · unfold Opt.iterSeed
    rw [h, Bool.and_false, Bool.and_false]
  · unfold Opt.shuffleSeed
    rw [h]
    rfl

open Witness

/-- C89 does not hold for all seeds: with overflow checks the feature alone makes a run panic that
succeeds without it. -/
theorem C89_violated_seed : ∃ (e : Env 1) (o : Opt 1), Built o ∧ o.ckpt = none ∧ o.params.seed < 2 ^ 64 ∧
    succeeds (run { e with checkpointing := false } o none) = true ∧
    (run { e with checkpointing := true } o none).result = .error .panic :=
  ⟨{ env stay with overflowChecks := true }, mk lin (params 4 6 (2 ^ 64 - 1)) (by decide +kernel),
    mk_built _, by decide +kernel, by decide +kernel, by decide +kernel, resultErr_iff (by decide +kernel)⟩

/-- The hypotheses of C89 are met by a run in a debug build that finds solutions. -/
example : Built demo ∧ demo.ckpt = none ∧ demo.params.seed < 2 ^ 64 ∧
    ({ env stay with overflowChecks := true } : Env 1).overflowChecks = true ∧
    demo.params.seed + demo.params.iterations < 2 ^ 64 ∧
    succeeds (run { env stay with overflowChecks := true, checkpointing := false } demo none) = true :=
  ⟨demo_built, by decide +kernel, by decide +kernel, rfl, by decide +kernel, by decide +kernel⟩

end GS.Props
