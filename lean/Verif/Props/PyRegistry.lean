/- Properties of the constraint registry of the Python bindings: C69 (the right constraints are evaluated) and
C77 (a failing constraint does not affect later optimizations). -/
import Verif.Model.PyRegistry

namespace GS.Props
open GS GS.PyReg

/-! ### C69 -/

/-- The problems created by a history. -/
def createdBy (s : State) : List Op → List Prob
  | [] => []
  | .new cs :: ops => ⟨s.counter, cs⟩ :: createdBy (step s (.new cs)) ops
  | op :: ops => createdBy (step s op) ops

/-- Only problems created in this history are used. -/
def Legit (ops : List Op) : Prop := ∀ u q, Op.constraints u q ∈ ops → q ∈ createdBy State.init ops

/-- The problem with constraints whose `constraints()` was called last on thread `t`. -/
def lastOn (t : Nat) : List Op → Option Prob
  | [] => none
  | .constraints u q :: ops =>
    match lastOn t ops with
    | some r => some r
    | none => if u = t ∧ q.constraints.isSome then some q else none
  | _ :: ops => lastOn t ops

theorem step_counter (s : State) (op : Op) : s.counter ≤ (step s op).counter := by
  cases op with
  | new cs => exact Nat.le_succ _
  | constraints t p =>
    simp only [step, constraints]
    (repeat' split) <;> exact Nat.le_refl _
  | eval t i x =>
    simp only [step, eval]
    (repeat' split) <;> exact Nat.le_refl _

theorem createdBy_ge (s : State) (ops : List Op) (p : Prob) (hp : p ∈ createdBy s ops) : s.counter ≤ p.id := by
  induction ops generalizing s with
  | nil => cases hp
  | cons op ops ih =>
    cases op with
    | new cs =>
      rcases List.mem_cons.mp hp with rfl | h
      · exact Nat.le_refl _
      · exact Nat.le_trans (step_counter _ _) (ih _ h)
    | constraints t p => exact Nat.le_trans (step_counter _ _) (ih _ hp)
    | eval t i x => exact Nat.le_trans (step_counter _ _) (ih _ hp)

theorem createdBy_distinct (s : State) (ops : List Op) :
    (createdBy s ops).Pairwise fun p q => p.id ≠ q.id := by
  induction ops generalizing s with
  | nil => exact List.Pairwise.nil
  | cons op ops ih =>
    cases op with
    | new cs =>
      refine List.Pairwise.cons (fun q hq => ?_) (ih _)
      have := createdBy_ge _ _ _ hq
      have h2 : (step s (.new cs)).counter = s.counter + 1 := rfl
      show s.counter ≠ q.id
      omega
    | constraints t p => exact ih _
    | eval t i x => exact ih _

/-- C69: the problems created in a process have pairwise distinct numbers. -/
theorem C69_ids (ops : List Op) : (createdBy State.init ops).Pairwise fun p q => p.id ≠ q.id :=
  createdBy_distinct _ _

theorem legit_unique {ops : List Op} {p q : Prob} (hp : p ∈ createdBy State.init ops)
    (hq : q ∈ createdBy State.init ops) (h : p.id = q.id) : p = q := by
  have := C69_ids ops
  revert hp hq
  generalize createdBy State.init ops = l at *
  induction l with
  | nil => intro hp; cases hp
  | cons x l ih =>
    intro hp hq
    obtain ⟨h1, h2⟩ := List.pairwise_cons.mp this
    rcases List.mem_cons.mp hp with e | hp' <;> rcases List.mem_cons.mp hq with e' | hq'
    · rw [e, e']
    · exact absurd h (e ▸ h1 _ hq')
    · exact absurd h.symm (e' ▸ h1 _ hp')
    · exact ih h2 hp' hq'

theorem poisoned_step (s : State) (op : Op) (h : s.poisoned = true) : (step s op).poisoned = true := by
  cases op with
  | new cs => exact h
  | constraints t p =>
    simp only [step, constraints]
    split
    · exact h
    · rw [if_pos h]; exact h
  | eval t i x =>
    simp only [step, eval]
    rw [if_pos h]; exact h

theorem poisoned_steps (s : State) (ops : List Op) (h : s.poisoned = true) : (steps s ops).poisoned = true := by
  induction ops generalizing s with
  | nil => exact h
  | cons op ops ih => exact ih _ (poisoned_step s op h)

theorem not_poisoned_start {s : State} {ops : List Op} (h : (steps s ops).poisoned = false) :
    s.poisoned = false := by
  cases hs : s.poisoned with
  | false => rfl
  | true => rw [poisoned_steps s ops hs] at h; cases h

/-- One problem is registered under its number, and stays registered. -/
theorem registered_step (s : State) (op : Op) (p : Prob) (cs : List PyFn) (hr : s.registry p.id = some cs)
    (hop : ∀ u q, op = .constraints u q → q.id = p.id → q.constraints = some cs) :
    (step s op).registry p.id = some cs := by
  cases op with
  | new cs => exact hr
  | constraints u q =>
    simp only [step, constraints]
    split
    · exact hr
    · rename_i ds hds
      split
      · exact hr
      · have : (if p.id = q.id then some ds else s.registry p.id) = some cs := by
          split
          · rename_i he
            have := hop u q rfl he.symm
            rw [hds] at this
            exact this
          · exact hr
        split <;> exact this
  | eval t i x =>
    simp only [step, eval]
    (repeat' split) <;> exact hr

theorem current_step (s : State) (op : Op) (t : Nat)
    (hop : ∀ q, op = .constraints t q → q.constraints = none) : (step s op).current t = s.current t := by
  cases op with
  | new cs => rfl
  | constraints u q =>
    simp only [step, constraints]
    split
    · rfl
    · rename_i ds hds
      split
      · rfl
      · have : (if t = u then q.id else s.current t) = s.current t := by
          split
          · rename_i he
            subst he
            have := hop q rfl
            rw [hds] at this
            cases this
          · rfl
        split <;> exact this
  | eval t i x =>
    simp only [step, eval]
    (repeat' split) <;> rfl

theorem lastOn_none_iff (t : Nat) (ops : List Op) :
    lastOn t ops = none ↔ ∀ q, Op.constraints t q ∈ ops → q.constraints = none := by
  induction ops with
  | nil => simp [lastOn]
  | cons op ops ih =>
    cases op with
    | new cs => simp [lastOn, ih]
    | eval u i x => simp [lastOn, ih]
    | constraints u q =>
      unfold lastOn
      constructor
      · intro h r hr
        split at h
        · cases h
        · rename_i hl
          rcases List.mem_cons.mp hr with hr | hr
          · injection hr with h1 h2
            subst h1; subst h2
            cases hc : r.constraints with
            | none => rfl
            | some _ => simp [hc] at h
          · exact ih.mp hl r hr
      · intro h
        have := ih.mpr fun r hr => h r (List.mem_cons_of_mem _ hr)
        rw [this]
        dsimp only
        rw [if_neg]
        rintro ⟨rfl, h2⟩
        rw [h q List.mem_cons_self] at h2
        cases h2

theorem steps_current (s : State) (ops : List Op) (t : Nat)
    (h : ∀ q, Op.constraints t q ∈ ops → q.constraints = none) : (steps s ops).current t = s.current t := by
  induction ops generalizing s with
  | nil => rfl
  | cons op ops ih =>
    show (steps (step s op) ops).current t = _
    rw [ih _ fun q hq => h q (List.mem_cons_of_mem _ hq)]
    exact current_step s op t fun q hq => h q (hq ▸ List.mem_cons_self)

theorem steps_registered (s : State) (ops : List Op) (p : Prob) (cs : List PyFn)
    (hr : s.registry p.id = some cs)
    (h : ∀ u q, Op.constraints u q ∈ ops → q.id = p.id → q.constraints = some cs) :
    (steps s ops).registry p.id = some cs := by
  induction ops generalizing s with
  | nil => exact hr
  | cons op ops ih =>
    refine ih _ ?_ fun u q hq => h u q (List.mem_cons_of_mem _ hq)
    exact registered_step s op p cs hr fun u q hq => h u q (hq ▸ List.mem_cons_self)

theorem steps_last (s : State) (ops : List Op) (t : Nat) (p : Prob) (cs : List PyFn)
    (hl : lastOn t ops = some p) (hc : p.constraints = some cs) (hok : (steps s ops).poisoned = false)
    (h : ∀ u q, Op.constraints u q ∈ ops → q.id = p.id → q.constraints = some cs) :
    (steps s ops).current t = p.id ∧ (steps s ops).registry p.id = some cs := by
  induction ops generalizing s with
  | nil => cases hl
  | cons op ops ih =>
    have hrest : ∀ u q, Op.constraints u q ∈ ops → q.id = p.id → q.constraints = some cs :=
      fun u q hq => h u q (List.mem_cons_of_mem _ hq)
    cases op with
    | new ds => exact ih _ hl hok hrest
    | eval u i x => exact ih _ hl hok hrest
    | constraints u q =>
      unfold lastOn at hl
      split at hl
      · rename_i r hr
        rw [hr, hl] at ih
        exact ih _ rfl hok hrest
      · rename_i hn
        split at hl
        · rename_i hcond
          injection hl with hl
          subst hl
          have hs : s.poisoned = false := not_poisoned_start (ops := .constraints u q :: ops) hok
          have hstep : (step s (.constraints u q)).current t = q.id ∧
              (step s (.constraints u q)).registry q.id = some cs := by
            simp only [step, constraints, hc, hs]
            rw [if_neg (by simp)]
            split <;> simp [hcond.1]
          refine ⟨?_, steps_registered _ ops q cs hstep.2 hrest⟩
          show (steps (step s (.constraints u q)) ops).current t = q.id
          rw [steps_current _ ops t ((lastOn_none_iff t ops).mp hn)]
          exact hstep.1
        · cases hl

theorem values_ok (cs : List PyFn) (x : List F64) (h : ∀ f ∈ cs, (f x).isSome = true) :
    ∃ vs, values cs x = some vs ∧ vs.length = cs.length ∧ ∀ i (hi : i < cs.length), vs[i]? = cs[i] x := by
  induction cs with
  | nil => exact ⟨[], rfl, rfl, fun i hi => absurd hi (Nat.not_lt_zero _)⟩
  | cons f fs ih =>
    obtain ⟨vs, h1, h2, h3⟩ := ih fun g hg => h g (List.mem_cons_of_mem _ hg)
    have hf := h f List.mem_cons_self
    cases hv : f x with
    | none => rw [hv] at hf; cases hf
    | some v =>
      refine ⟨v :: vs, ?_, by simp [h2], ?_⟩
      · simp [values, hv, h1]
      · intro i hi
        cases i with
        | zero => simp [hv]
        | succ i => simpa using h3 i (by simpa using hi)

theorem values_none (cs : List PyFn) (x : List F64) (f : PyFn) (hf : f ∈ cs) (h : f x = none) :
    values cs x = none := by
  induction cs with
  | nil => cases hf
  | cons g gs ih =>
    unfold values
    rcases List.mem_cons.mp hf with rfl | hf
    · rw [h]
    · rw [ih hf]
      cases g x <;> rfl

/-- C69 (partial): in every history of the process, on a thread whose last call of `constraints()` was for the
problem `p`, the `i`-th constraint function returns the value of the `i`-th constraint of `p`, whatever other threads and
problems did, as long as no constraint has failed so far and none of `p`'s fails here.
Missing: threads on which `constraints()` of `p` was not the last one called (`C69_other_thread_violated`,
`C69_other_problem_violated`). -/
theorem C69_same_thread_partial (ops : List Op) (hlegit : Legit ops) (t : Nat) (p : Prob) (cs : List PyFn)
    (hl : lastOn t ops = some p) (hc : p.constraints = some cs) (hp : (steps State.init ops).poisoned = false)
    (x : List F64) (hx : ∀ f ∈ cs, (f x).isSome = true) (i : Nat) (hi : i < cs.length) :
    (eval (steps State.init ops) t i x).2 = cs[i] x := by
  have hmem : ∀ {ops : List Op}, lastOn t ops = some p → ∃ u, Op.constraints u p ∈ ops := by
    intro ops
    induction ops with
    | nil => intro h; cases h
    | cons op ops ih =>
      intro h
      cases op with
      | new ds => obtain ⟨u, hu⟩ := ih h; exact ⟨u, List.mem_cons_of_mem _ hu⟩
      | eval u i x => obtain ⟨u, hu⟩ := ih h; exact ⟨u, List.mem_cons_of_mem _ hu⟩
      | constraints u q =>
        unfold lastOn at h
        split at h
        · rename_i r hr
          rw [hr, h] at ih
          obtain ⟨u, hu⟩ := ih rfl
          exact ⟨u, List.mem_cons_of_mem _ hu⟩
        · split at h
          · injection h with h
            subst h
            exact ⟨u, List.mem_cons_self⟩
          · cases h
  obtain ⟨u0, hu0⟩ := hmem hl
  have hpc := hlegit u0 p hu0
  obtain ⟨h1, h2⟩ := steps_last State.init ops t p cs hl hc hp fun u q hq hid => by
    rw [legit_unique (hlegit u q hq) hpc hid, hc]
  obtain ⟨vs, v1, v2, v3⟩ := values_ok cs x hx
  have hv := v3 i hi
  unfold eval
  rw [if_neg (by rw [hp]; simp), h1, h2]
  dsimp only
  rw [v1]
  dsimp only
  have : vs[i]? = some vs[i] := List.getElem?_eq_getElem (by omega)
  rw [← hv, this]
  rfl

/-- The functions handed out by `constraints()` are numbered like the problem's constraints. -/
theorem C69_functions (s : State) (t : Nat) (p : Prob) (cs : List PyFn) (hc : p.constraints = some cs)
    (hs : s.poisoned = false) (hlen : cs.length ≤ 1000) :
    (constraints s t p).2 = some (List.range cs.length) := by
  unfold constraints
  rw [hc]
  dsimp only
  rw [hs, if_neg (by simp), if_neg (by unfold maxConstraints; omega)]

/-- C69 is violated on threads that never called `constraints()` (rayon workers): whatever problem the function came
from, it evaluates the first problem of the process, or returns 0, that is "satisfied", if that one has no constraints. -/
theorem C69_other_thread_violated (ops : List Op) (t : Nat) (ht : ∀ q, Op.constraints t q ∉ ops)
    (hp : (steps State.init ops).poisoned = false) (x : List F64) (i : Nat) :
    ((steps State.init ops).registry 0 = none → (eval (steps State.init ops) t i x).2 = some F64.zero) ∧
    (∀ cs, (steps State.init ops).registry 0 = some cs → (∀ f ∈ cs, (f x).isSome = true) →
      ∀ (hi : i < cs.length), (eval (steps State.init ops) t i x).2 = cs[i] x) := by
  have hcur : (steps State.init ops).current t = 0 := by
    rw [steps_current _ _ _ fun q hq => absurd hq (ht q)]
    rfl
  constructor
  · intro h
    unfold eval
    rw [if_neg (by rw [hp]; simp), hcur, h]
  · intro cs h hx hi
    obtain ⟨vs, v1, v2, v3⟩ := values_ok cs x hx
    have hv := v3 i hi
    unfold eval
    rw [if_neg (by rw [hp]; simp), hcur, h]
    dsimp only
    rw [v1]
    dsimp only
    have : vs[i]? = some vs[i] := List.getElem?_eq_getElem (by omega)
    rw [← hv, this]
    rfl

/-- A constraint that is always violated, one that is always satisfied, and one that fails. -/
def never : PyFn := fun _ => some (F64.fneg F64.one)
def always : PyFn := fun _ => some F64.one
def crashing : PyFn := fun _ => none

/-- Two problems are created, the first without constraints, and the second one's constraints are fetched on thread 0. -/
def fetchSecond : List Op := [.new none, .new (some [never]), .constraints 0 ⟨1, some [never]⟩]

/-- C69 is violated, concretely: the same function says -1 on the thread that fetched it and 0 (satisfied) on another. -/
theorem C69_worker_violated :
    Legit fetchSecond ∧
    (eval (steps State.init fetchSecond) 0 0 []).2 = some (F64.fneg F64.one) ∧
    (eval (steps State.init fetchSecond) 1 0 []).2 = some F64.zero := by
  refine ⟨?_, rfl, rfl⟩
  intro u q hq
  simp only [fetchSecond, List.mem_cons, reduceCtorEq, Op.constraints.injEq, List.not_mem_nil, or_false,
    false_or] at hq
  rw [hq.2]
  exact List.mem_cons_of_mem _ List.mem_cons_self

/-- Constraints of two problems are fetched on the same thread. -/
def fetchBoth : List Op := [.new (some [never]), .new (some [always]),
  .constraints 0 ⟨0, some [never]⟩, .constraints 0 ⟨1, some [always]⟩]

/-- C69 is violated by other problems: after the constraints of a second problem are fetched, the function obtained
from the first one evaluates the second. -/
theorem C69_other_problem_violated :
    Legit fetchBoth ∧ (constraints (steps State.init (fetchBoth.take 2)) 0 ⟨0, some [never]⟩).2 = some [0] ∧
    (eval (steps State.init (fetchBoth.take 3)) 0 0 []).2 = some (F64.fneg F64.one) ∧
    (eval (steps State.init fetchBoth) 0 0 []).2 = some F64.one := by
  refine ⟨?_, rfl, rfl, rfl⟩
  intro u q hq
  simp only [fetchBoth, List.mem_cons, reduceCtorEq, Op.constraints.injEq, List.not_mem_nil, or_false,
    false_or] at hq
  rcases hq with hq | hq <;> rw [hq.2]
  · exact List.mem_cons_self
  · exact List.mem_cons_of_mem _ List.mem_cons_self

example : ∃ t p cs i x, Legit fetchSecond ∧ lastOn t fetchSecond = some p ∧ p.constraints = some cs ∧
    (steps State.init fetchSecond).poisoned = false ∧ (∀ f ∈ cs, (f x).isSome = true) ∧ i < cs.length :=
  ⟨0, ⟨1, some [never]⟩, [never], 0, [], C69_worker_violated.1, rfl, rfl, rfl,
    by intro f hf; rw [List.mem_singleton.mp hf]; rfl, by simp⟩

/-! ### C77 -/

/-- Every function used in the history succeeds at every point. -/
def NoFailures (ops : List Op) : Prop :=
  ∀ u q cs, Op.constraints u q ∈ ops → q.constraints = some cs → ∀ f ∈ cs, ∀ x, (f x).isSome = true

theorem registry_tame (s : State) (ops : List Op) (hs : s.poisoned = false)
    (hr : ∀ i cs, s.registry i = some cs → ∀ f ∈ cs, ∀ x, (f x).isSome = true) (h : NoFailures ops) :
    (steps s ops).poisoned = false := by
  induction ops generalizing s with
  | nil => exact hs
  | cons op ops ih =>
    have hrest : NoFailures ops := fun u q cs hq => h u q cs (List.mem_cons_of_mem _ hq)
    cases op with
    | new ds => exact ih _ hs hr hrest
    | constraints u q =>
      refine ih _ ?_ ?_ hrest
      · simp only [step, constraints]
        (repeat' split) <;> exact hs
      · intro i cs hcs f hf x
        simp only [step, constraints] at hcs
        split at hcs
        · exact hr i cs hcs f hf x
        · rename_i ds hds
          rw [if_neg (by rw [hs]; simp)] at hcs
          have : (if i = q.id then some ds else s.registry i) = some cs := by
            split at hcs <;> exact hcs
          split at this
          · injection this with this
            subst this
            exact h u q ds List.mem_cons_self hds f hf x
          · exact hr i cs this f hf x
    | eval t i x =>
      have : step s (.eval t i x) = s := by
        simp only [step, eval]
        rw [if_neg (by rw [hs]; simp)]
        split
        · rfl
        · rename_i cs hcs
          obtain ⟨vs, v1, _⟩ := values_ok cs x fun f hf => hr _ cs hcs f hf x
          rw [v1]
      show (steps (step s (.eval t i x)) ops).poisoned = false
      rw [this]
      exact ih s hs hr hrest

/-- C77 (partial): if no constraint ever fails, then in every history `constraints()` succeeds for every problem with
at most 1000 constraints.  Missing: histories with a failing constraint (`C77_violated`). -/
theorem C77_available_partial (ops : List Op) (h : NoFailures ops) (t : Nat) (p : Prob) (cs : List PyFn)
    (hc : p.constraints = some cs) (hlen : cs.length ≤ 1000) :
    (constraints (steps State.init ops) t p).2 = some (List.range cs.length) :=
  C69_functions _ t p cs hc (registry_tame _ _ rfl (by intro i cs h; cases h) h) hlen

/-- C77: a problem without constraints is never affected. -/
theorem C77_unconstrained (ops : List Op) (t : Nat) (p : Prob) (hc : p.constraints = none) :
    (constraints (steps State.init ops) t p).2 = some [] := by
  unfold constraints
  rw [hc]

/-- C77 is violated: once a constraint has failed, whatever happens afterwards, `constraints()` of every problem with
constraints panics, and so does every constraint function, on every thread. -/
theorem C77_violated (s : State) (ops : List Op) (t t' : Nat) (i j : Nat) (x y : List F64) (cs : List PyFn)
    (f : PyFn) (hs : s.poisoned = false) (hr : s.registry (s.current t) = some cs) (hf : f ∈ cs)
    (hx : f x = none) (p : Prob) (hp : p.constraints.isSome = true) :
    (constraints (steps (step s (.eval t i x)) ops) t' p).2 = none ∧
    (eval (steps (step s (.eval t i x)) ops) t' j y).2 = none := by
  have h1 : (step s (.eval t i x)).poisoned = true := by
    simp only [step, eval]
    rw [if_neg (by rw [hs]; simp), hr]
    dsimp only
    rw [values_none cs x f hf hx]
  have h2 := poisoned_steps _ ops h1
  constructor
  · unfold constraints
    cases hc : p.constraints with
    | none => rw [hc] at hp; cases hp
    | some ds =>
      dsimp only
      rw [if_pos h2]
  · unfold eval
    rw [if_pos h2]

/-- A problem with a constraint that fails, and a healthy one. -/
def withRaising : List Op := [.new (some [crashing]), .new (some [always]), .constraints 0 ⟨0, some [crashing]⟩]

example : let s := steps State.init withRaising
    s.poisoned = false ∧ s.registry (s.current 0) = some [crashing] ∧ crashing [] = none ∧
    (constraints s 0 ⟨1, some [always]⟩).2 = some [0] ∧
    (constraints (step s (.eval 0 0 [])) 0 ⟨1, some [always]⟩).2 = none := ⟨rfl, rfl, rfl, rfl, rfl⟩

end GS.Props
