/- Concrete optimizers for examples and counterexamples. -/
import Verif.Lemmas.Built
import Verif.Lemmas.Witness

namespace GS.Witness
open GS F64
variable {n : Nat}

/-- The value of a computation that succeeds. -/
def okOf {ε α : Type} (x : Except ε α) (h : x.toOption.isSome = true) : α := x.toOption.get h

theorem okOf_eq {ε α : Type} (x : Except ε α) (h : x.toOption.isSome = true) : x = .ok (okOf x h) := by
  cases x with
  | error e => cases h
  | ok a => rfl

/-- An optimizer made by `OQNLP::new`. -/
def mk (p : Problem n) (q : Params) (h : (Opt.new p q).toOption.isSome = true) : Opt n := okOf _ h

theorem mk_built {p : Problem n} {q : Params} (h : (Opt.new p q).toOption.isSome = true) :
    Built (mk p q h) := Built.new (okOf_eq _ h)

theorem new_fields {p : Problem n} {q : Params} {o : Opt n} (h : Opt.new p q = .ok o) :
    o.problem = p ∧ o.params = q ∧ o.target = none ∧ o.maxTime = none ∧ o.exclude = false ∧
      o.batch = none ∧ o.par = true ∧ o.ckpt = none ∧ o.obs = none ∧ o.custom = none := by
  unfold Opt.new at h
  (repeat' split at h) <;> cases h
  exact ⟨rfl, rfl, rfl, rfl, rfl, rfl, rfl, rfl, rfl, rfl⟩

theorem mk_fields {p : Problem n} {q : Params} (h : (Opt.new p q).toOption.isSome = true) :
    (mk p q h).problem = p ∧ (mk p q h).params = q ∧ (mk p q h).target = none ∧
      (mk p q h).maxTime = none ∧ (mk p q h).exclude = false ∧ (mk p q h).batch = none ∧
      (mk p q h).par = true ∧ (mk p q h).ckpt = none ∧ (mk p q h).obs = none ∧
      (mk p q h).custom = none := new_fields (okOf_eq _ h)

theorem demo_ok : (Opt.new lin (params 4 6 0)).toOption.isSome = true := by decide +kernel

/-- `min x` on `[1, 4]` with four iterations on six points. -/
def demo : Opt 1 := mk lin (params 4 6 0) demo_ok

/-- The same, sequential. -/
def demoSeq : Opt 1 := demo.setParallel false

theorem demo_built : Built demo := mk_built demo_ok
theorem demoSeq_built : Built demoSeq := Built.parallel false demo_built
theorem demo_problem : demo.problem = lin := (mk_fields demo_ok).1
theorem setParallel_problem (o : Opt n) (b : Bool) : (o.setParallel b).problem = o.problem := rfl
theorem demoSeq_problem : demoSeq.problem = lin := by
  rw [demoSeq, setParallel_problem, demo_problem]

/-- Does a run succeed? -/
def succeeds (r : RunResult n) : Bool := match r.result with | .ok _ => true | .error _ => false

theorem succeeds_iff {r : RunResult n} (h : succeeds r = true) : ∃ set, r.result = .ok set := by
  unfold succeeds at h
  split at h
  · exact ⟨_, by assumption⟩
  · cases h

end GS.Witness
