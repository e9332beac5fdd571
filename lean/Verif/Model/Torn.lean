/- A program with checkpointing that is killed while a checkpoint is being written. -/
import Verif.Model.Restart

namespace GS
variable {n : Nat}

/-- A lifetime of the program that ends inside `fs::write` (src/checkpoint.rs 249): the events `tr` have
happened, and `k` bytes of the next checkpoint `c`, of iteration `it`, have reached the file. -/
structure Torn (m : Manager) (o : Opt n) (d : Dir) (env : Env n) (tr : List (Event n)) (it : Nat) (c : Ckpt n)
    (k : Nat) (d' : Dir) : Prop where
  run : ∃ loaded, m.finds n d = some loaded ∧ tr ++ [.saved it c] <+: (run env o loaded).final.trace
  noFailure : ∀ i c', Event.saveFailed i c' ∉ tr
  values : ∀ s ∈ written (tr ++ [.saved it c]), CkptOk m.feat s.2.toWire
  inside : k < (Enc.ckpt m.feat c.toWire).length
  dir : d'.Perm (m.crashSave (m.after d tr) c.toWire it k)

end GS
