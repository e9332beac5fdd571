/- Real time: `std::time::Instant` as whole nanoseconds, `Duration::as_secs_f64`, and the instants at which
a run looks at the clock. -/
import Verif.Model.Oqnlp

namespace GS
variable {n : Nat}

/-- `Duration::as_secs_f64` of a duration of `ns` nanoseconds: whole seconds as a double plus the remaining
nanoseconds as a double divided by `1e9`, as called at src/oqnlp.rs 965, 1564. -/
def asSecs (ns : Nat) : F64 :=
  F64.add (F64.ofNat (ns / 10 ^ 9)) (F64.div (F64.ofNat (ns % 10 ^ 9)) (F64.ofNat (10 ^ 9)))

/-- The instants (in nanoseconds) at which a run looks at the clock: src/oqnlp.rs 697-699, 927-928, 963-965,
1563-1564. -/
structure Instants where
  /-- `self.start_time`: src/oqnlp.rs 697-699 (set once per optimizer) -/
  start : Nat
  /-- `start_timer`: src/oqnlp.rs 927-928 -/
  stage2 : Nat
  /-- the `k`-th checkpoint is created: src/oqnlp.rs 1563-1564 -/
  save : Nat → Nat
  /-- the `k`-th batch begins: src/oqnlp.rs 963-965 -/
  batch : Nat → Nat

/-- The environment reads a clock that never goes back (`Instant` is monotonic), for less than `2^52`
seconds (142 million years).  Elapsed times are `Instant::elapsed().as_secs_f64()`: src/oqnlp.rs 965, 1564. -/
structure Clocked (env : Env n) (t : Instants) : Prop where
  stamp : ∀ k, (env.stamp k).1 = asSecs (t.save k - t.start)
  clock : ∀ k, env.clock k = asSecs (t.batch k - t.stage2)
  saveMono : ∀ i j, i ≤ j → t.save i ≤ t.save j
  batchMono : ∀ i j, i ≤ j → t.batch i ≤ t.batch j
  start_le : t.start ≤ t.save 0
  stage2_le : t.stage2 ≤ t.batch 0
  saveRange : ∀ k, t.save k - t.start < 2 ^ 52 * 10 ^ 9
  batchRange : ∀ k, t.batch k - t.stage2 < 2 ^ 52 * 10 ^ 9

end GS
