/- A program that builds an optimizer with checkpointing and runs it, started again after every interruption: the
run (src/oqnlp.rs) together with the checkpoint directory (src/checkpoint.rs).

A lifetime of the program is a run cut off after some of its events.  The cut is between two events, so a
checkpoint is written completely or not at all; interrupted writes are the subject of C44. -/
import Verif.Model.Checkpoint
import Verif.Model.Oqnlp

namespace GS
variable {n : Nat}

/-- The checkpoints written by the events of a run, each with the iteration passed to `save_checkpoint`
(src/oqnlp.rs 1593-1594, 1608-1609). -/
def written (tr : List (Event n)) : List (Nat × Ckpt n) :=
  tr.filterMap fun e => match e with
    | .saved it c => some (it, c)
    | _ => none

/-- The checkpoint manager of an optimizer with configuration `cfg`, in a build with features `f`:
src/oqnlp.rs 1357-1360. -/
def CkptConfig.manager (cfg : CkptConfig) (f : Feat) : Manager := ⟨f, cfg.name.toList, cfg.keepAll⟩

namespace Manager

/-- The directory after the writes of a run: `fs::write` at src/checkpoint.rs 249, called from
src/oqnlp.rs 1590-1618. -/
def after (m : Manager) (d : Dir) (tr : List (Event n)) : Dir :=
  (written tr).foldl (fun d s => m.save d s.2.toWire s.1) d

/-- What a run of a problem of dimension `n` is given by the manager at its start
(src/oqnlp.rs 1366-1375); `none` if looking panics or the points have another dimension. -/
def finds (m : Manager) (n : Nat) (d : Dir) : Option (Option (Except CkErr (Ckpt n))) :=
  match m.discover d with
  | .ok none => some none
  | .ok (some (.error e)) => some (some (.error e))
  | .ok (some (.ok w)) => (w.toCkpt n).map fun c => some (.ok c)
  | .err _ => none
  | .panic => none

end Manager

/-- One lifetime of the program: it builds `o`, starts in directory `d`, and is interrupted when the
events `tr` have happened (all events of the run, if it was not interrupted).  The environment is
arbitrary.  No write fails, and what is written are values of the Rust types: a user program calling
`with_checkpointing` and `run`: src/oqnlp.rs 1357-1363, 678-1031; no code in /repo. -/
structure Life (m : Manager) (o : Opt n) (d : Dir) (env : Env n) (tr : List (Event n)) (d' : Dir) : Prop where
  run : ∃ loaded, m.finds n d = some loaded ∧ tr <+: (run env o loaded).final.trace
  noFailure : ∀ it c, Event.saveFailed it c ∉ tr
  values : ∀ s ∈ written tr, CkptOk m.feat s.2.toWire
  /-- the order in which files are listed may change -/
  dir : d'.Perm (m.after d tr)

/-- Any number of lifetimes one after another: a user program calling `with_checkpointing` and `run`:
src/oqnlp.rs 1357-1363, 678-1031; no code in /repo. -/
inductive Lives (m : Manager) (o : Opt n) (d0 : Dir) : List (Env n × List (Event n)) → Dir → Prop
  | start : Lives m o d0 [] d0
  | next {h d env tr d'} : Lives m o d0 h d → Life m o d env tr d' → Lives m o d0 (h ++ [(env, tr)]) d'

end GS
