/- C111: what a resumed run depends on. -/
import Verif.Lemmas.Custom
import Verif.Props.Resume

namespace GS.Props
open GS F64 GS.Witness
variable {n : Nat}

/-- What a resumed run takes from the resuming optimizer: the problem, the distance filter's settings, the
local solver of the sequential code, the time limit, the checkpoint settings and the observer. -/
structure SameLive (a b : Opt n) : Prop where
  problem : b.problem = a.problem
  filter : b.dist.params = a.dist.params
  solver : b.lsType = a.lsType
  config : b.lsConfig = a.lsConfig
  maxTime : b.maxTime = a.maxTime
  ckpt : b.ckpt = a.ckpt
  obs : b.obs = a.obs

theorem restore_live {a b : Opt n} (h : SameLive a b) (env : Env n) (c : Ckpt n) :
    (started env b).restore c = { (started env a).restore c with custom := b.custom } := by
  obtain ⟨p, q, ⟨t⟩, ⟨d1, d2⟩, l1, l2, s, mt, bt, pr, tg, ex, ck, ci, cr, u, cs, ob, cu, at', rt'⟩ := a
  obtain ⟨p', q', ⟨t'⟩, ⟨d1', d2'⟩, l1', l2', s', mt', bt', pr', tg', ex', ck', ci', cr', u', cs', ob', cu', at'', rt''⟩ := b
  obtain ⟨h1, h2, h3, h4, h5, h6, h7⟩ := h
  dsimp only at *
  subst h1 h2 h3 h4 h5 h6 h7
  rfl

/-- C111: two optimizers that agree in these respects do the same when they resume from the same checkpoint:
same result, same events (candidates, local searches, checkpoints written, callbacks), same final state apart
from the custom points, which are not used.  Their parameters, custom points, tolerances, target, bounds
exclusion, batch size, parallel flag and everything they found before have no influence. -/
theorem C111_determined {env : Env n} {a b : Opt n} (h : SameLive a b) {c : Ckpt n}
    (hr : Resumes a (some (.ok c)) c) :
    (run env b (some (.ok c))).result = (run env a (some (.ok c))).result ∧
    (run env b (some (.ok c))).final.trace = (run env a (some (.ok c))).final.trace ∧
    (run env b (some (.ok c))).final.opt = { (run env a (some (.ok c))).final.opt with custom := b.custom } := by
  have hr' : Resumes b (some (.ok c)) c := ⟨rfl, by rw [h.ckpt]; exact hr.2⟩
  rw [run_resumes env a _ hr, run_resumes env b _ hr', restore_live h env c]
  have := NoC.body_resumed env b.custom ⟨(started env a).restore c, 0, 0, []⟩
  rw [show M.setC b.custom (⟨(started env a).restore c, 0, 0, []⟩ : M n) =
    ⟨{ (started env a).restore c with custom := b.custom }, 0, 0, []⟩ from rfl] at this
  rw [this]
  cases hb : Act.body env true ⟨(started env a).restore c, 0, 0, []⟩ with
  | mk m out =>
    unfold finish
    cases out with
    | fail e => exact ⟨rfl, rfl, rfl⟩
    | cont =>
      dsimp only
      rw [show (M.setC b.custom m).opt.solset = m.opt.solset from rfl]
      split <;> exact ⟨rfl, rfl, rfl⟩
    | stop =>
      dsimp only
      rw [show (M.setC b.custom m).opt.solset = m.opt.solset from rfl]
      split <;> exact ⟨rfl, rfl, rfl⟩

/-- C111 for the public settings: on an optimizer that resumes, `target_objective`, `with_tolerance`,
`exclude_out_of_bounds`, `batch_iterations`, `parallel` and `with_points` have no effect on result and events. -/
theorem C111_settings_ignored {env : Env n} {o : Opt n} {c : Ckpt n} (hr : Resumes o (some (.ok c)) c)
    (o' : Opt n) (h : (∃ t, o' = o.setTarget t) ∨ (∃ a r, o' = o.withTolerance a r) ∨ (∃ b, o' = o.setExclude b) ∨
      (∃ b, o' = o.setBatch b) ∨ (∃ b, o' = o.setParallel b) ∨ (∃ rows, o.withPoints rows = .ok o')) :
    (run env o' (some (.ok c))).result = (run env o (some (.ok c))).result ∧
    (run env o' (some (.ok c))).final.trace = (run env o (some (.ok c))).final.trace := by
  have hl : SameLive o o' := by
    rcases h with ⟨t, rfl⟩ | ⟨a, r, rfl⟩ | ⟨b, rfl⟩ | ⟨b, rfl⟩ | ⟨b, rfl⟩ | ⟨rows, h⟩
    case inr.inr.inr.inr.inr =>
      unfold Opt.withPoints at h
      split at h
      · cases h
      · cases h; exact ⟨rfl, rfl, rfl, rfl, rfl, rfl, rfl⟩
    all_goals exact ⟨rfl, rfl, rfl, rfl, rfl, rfl, rfl⟩
  exact ⟨(C111_determined hl hr).1, (C111_determined hl hr).2.1⟩

/-- C111, the other settings do count: the time limit, the checkpoint settings, the problem and the observer
are those of the resuming optimizer. -/
theorem C111_live {env : Env n} {o : Opt n} {c : Ckpt n} (hr : Resumes o (some (.ok c)) c) :
    (run env o (some (.ok c))).final.opt.problem = o.problem ∧
    (run env o (some (.ok c))).final.opt.maxTime = o.maxTime ∧
    (run env o (some (.ok c))).final.opt.ckpt = o.ckpt ∧
    (run env o (some (.ok c))).final.opt.lsType = o.lsType ∧
    (run env o (some (.ok c))).final.opt.lsConfig = o.lsConfig ∧
    (run env o (some (.ok c))).final.opt.dist.params = o.dist.params ∧
    (run env o (some (.ok c))).final.opt.params = c.params ∧
    (run env o (some (.ok c))).final.opt.target = c.targetObjective ∧
    (run env o (some (.ok c))).final.opt.exclude = c.excludeOutOfBounds ∧
    (run env o (some (.ok c))).final.opt.batch = c.batchIterations ∧
    (run env o (some (.ok c))).final.opt.par = c.enableParallel ∧
    (run env o (some (.ok c))).final.opt.absTol = c.absTol ∧
    (run env o (some (.ok c))).final.opt.relTol = c.relTol := by
  rw [run_resumes env o _ hr, finish_final]
  have h := (Steps.body env true ⟨(started env o).restore c, 0, 0, []⟩).cfg
  exact ⟨h.problem, h.maxTime, h.ckpt, h.lsType, h.lsConfig, h.dparams, h.params, h.target, h.exclude, h.batch,
    h.par, h.absTol, h.relTol⟩

/-- The demonstration optimizer, resuming automatically. -/
def resumer : Opt 1 := demoSeq.withCheckpointing ⟨"run", 1, true, true⟩

theorem settings_live (o : Opt n) (t a r : F64) (b : Bool) :
    SameLive o (((o.setTarget t).withTolerance a r).setParallel b) := ⟨rfl, rfl, rfl, rfl, rfl, rfl, rfl⟩

example : SameLive resumer (((resumer.setTarget F64.one).withTolerance F64.one F64.one).setParallel true) :=
  settings_live _ _ _ _ _
example : Resumes resumer (some (.ok (midRun.createCkpt (F64.zero, "t")))) (midRun.createCkpt (F64.zero, "t")) :=
  ⟨rfl, ⟨"run", 1, true, true⟩, rfl, rfl⟩
/-- Without a checkpoint the target does count. -/
example : (examined (run (env stay) (resumer.setTarget (num 1)) none).final.trace).length <
    (examined (run (env stay) resumer none).final.trace).length := by decide +kernel

end GS.Props
