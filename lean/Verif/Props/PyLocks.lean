/- C76: evaluations of Python problems do not deadlock. -/
import Verif.Model.PyLocks

namespace GS.Props
open GS.PyLocks

def Lk.rank : Lk → Nat
  | .call => 0
  | .registry => 1
  | .gil => 2

/-- Locks are taken in increasing order, released only when held, not held while waiting for threads, and all
released at the end; thread `i` waits only for threads with larger numbers. -/
def Ordered (i : Nat) : List Lk → List Act → Prop
  | held, [] => held = []
  | held, .acq l :: p => (∀ h ∈ held, Lk.rank h < Lk.rank l) ∧ Ordered i (l :: held) p
  | held, .rel l :: p => l ∈ held ∧ Ordered i (held.erase l) p
  | held, .join ts :: p => held = [] ∧ (∀ j ∈ ts, i < j) ∧ Ordered i held p

def AllOrdered (s : State) : Prop := ∀ i t, s[i]? = some t → Ordered i t.held t.prog

theorem set_get {s : State} {i j : Nat} {t u : Thread} (h : (s.set i t)[j]? = some u) :
    (j = i ∧ u = t) ∨ (j ≠ i ∧ s[j]? = some u) := by
  rw [List.getElem?_set] at h
  split at h
  · rename_i e
    split at h
    · injection h with h; exact .inl ⟨e.symm, h.symm⟩
    · cases h
  · rename_i e
    exact .inr ⟨fun hc => e hc.symm, h⟩

theorem step_ordered {s s' : State} {i : Nat} (h : AllOrdered s) (hs : step s i = some s') : AllOrdered s' := by
  unfold step at hs
  split at hs
  · cases hs
  · rename_i t ht
    obtain ⟨t', ht', rfl⟩ := Option.map_eq_some_iff.mp hs
    have ho := h i t ht
    intro j u hu
    rcases set_get hu with ⟨rfl, rfl⟩ | ⟨_, hu⟩
    · unfold Thread.step at ht'
      split at ht'
      · cases ht'
      · rename_i l p hp
        split at ht'
        · injection ht' with ht'
          rw [hp] at ho
          rw [← ht']
          exact ho.2
        · cases ht'
      · rename_i l p hp
        injection ht' with ht'
        rw [hp] at ho
        rw [← ht']
        exact ho.2
      · rename_i ts p hp
        split at ht'
        · injection ht' with ht'
          rw [hp] at ho
          rw [← ht']
          exact ho.2.2
        · cases ht'
    · exact h j u hu

theorem exec_ordered {s s' : State} {sched : List Nat} (h : AllOrdered s) (hs : exec s sched = some s') :
    AllOrdered s' := by
  induction sched generalizing s with
  | nil => cases hs; exact h
  | cons i sched ih =>
    obtain ⟨s1, h1, h2⟩ := Option.bind_eq_some_iff.mp hs
    exact ih (step_ordered h h1) h2

/-- Nobody can wait for a lock in a state without enabled steps. -/
theorem no_waiter {s : State} (h : AllOrdered s) (hno : ∀ i, step s i = none) (m : Nat) :
    ∀ (i : Nat) (t : Thread) (l : Lk) (p : List Act), s[i]? = some t → t.prog = .acq l :: p → ¬ 3 - m ≤ Lk.rank l := by
  induction m with
  | zero =>
    intro i t l p _ _ hc
    cases l <;> exact absurd hc (by decide)
  | succ m ih =>
    intro i t l p ht hp hc
    have hblocked : free s l = false := by
      cases hf : free s l with
      | false => rfl
      | true =>
        have := hno i
        unfold step at this
        rw [ht] at this
        simp [Thread.step, hp, hf] at this
    unfold free at hblocked
    rw [List.all_eq_false] at hblocked
    obtain ⟨u, hu, hl⟩ := hblocked
    have hmem : l ∈ u.held := by simpa using hl
    obtain ⟨j, hj, hju⟩ := List.getElem_of_mem hu
    have hu' : s[j]? = some u := by rw [List.getElem?_eq_getElem hj, hju]
    have ho := h j u hu'
    have hstep : u.step s = none := by
      have := hno j
      unfold step at this
      rw [hu'] at this
      simpa using this
    unfold Thread.step at hstep
    split at hstep
    · rename_i hq
      rw [hq] at ho
      rw [show u.held = [] from ho] at hmem
      cases hmem
    · rename_i l' p' hq
      rw [hq] at ho
      exact ih j u l' p' hu' hq (by have := ho.1 l hmem; omega)
    · cases hstep
    · rename_i ts p' hq
      rw [hq] at ho
      rw [show u.held = [] from ho.1] at hmem
      cases hmem

/-- From an ordered state some thread can always make a step unless all have finished. -/
theorem progress {s : State} (h : AllOrdered s) (hno : ∀ i, step s i = none) : ∀ t ∈ s, t.prog = [] := by
  have key : ∀ m j, s.length - m ≤ j → ∀ t, s[j]? = some t → t.prog = [] := by
    intro m
    induction m with
    | zero =>
      intro j hj t ht
      have := (List.getElem?_eq_some_iff.mp ht).1
      omega
    | succ m ih =>
      intro j hj t ht
      have ho := h j t ht
      have hstep : t.step s = none := by
        have := hno j
        unfold step at this
        rw [ht] at this
        simpa using this
      unfold Thread.step at hstep
      split at hstep
      · rename_i hp; exact hp
      · rename_i l p hp
        exact absurd (by simp) (no_waiter h hno 3 j t l p ht hp)
      · cases hstep
      · rename_i ts p hp
        rw [hp] at ho
        rw [if_pos] at hstep
        · cases hstep
        · rw [List.all_eq_true]
          intro k hk
          have hjk := ho.2.1 k hk
          unfold finished
          cases hk' : s[k]? with
          | none => rfl
          | some u =>
            have := ih k (by omega) u hk'
            simp [this]
  intro t ht
  obtain ⟨j, hj, hjt⟩ := List.getElem_of_mem ht
  exact key s.length j (by omega) t (by rw [List.getElem?_eq_getElem hj, hjt])

/-- Remaining lock operations of all threads. -/
def remaining (s : State) : Nat := (s.map fun t => t.prog.length).sum

theorem remaining_zero {s : State} (h : ∀ t ∈ s, t.prog = []) : remaining s = 0 := by
  unfold remaining
  induction s with
  | nil => rfl
  | cons t s ih =>
    rw [List.map_cons, List.sum_cons, ih fun u hu => h u (List.mem_cons_of_mem _ hu), h t List.mem_cons_self]
    rfl

theorem remaining_set {s : State} {i : Nat} {t t' : Thread} (h : s[i]? = some t)
    (hl : t'.prog.length + 1 = t.prog.length) : remaining (s.set i t') + 1 = remaining s := by
  unfold remaining
  induction s generalizing i with
  | nil => cases h
  | cons a s ih =>
    cases i with
    | zero =>
      simp only [List.getElem?_cons_zero, Option.some.injEq] at h
      subst h
      simp only [List.set_cons_zero, List.map_cons, List.sum_cons]
      omega
    | succ i =>
      have := ih (by simpa using h)
      simp only [List.set_cons_succ, List.map_cons, List.sum_cons]
      omega

theorem step_remaining {s s' : State} {i : Nat} (h : step s i = some s') : remaining s' + 1 = remaining s := by
  unfold step at h
  split at h
  · cases h
  · rename_i t ht
    obtain ⟨t', ht', rfl⟩ := Option.map_eq_some_iff.mp h
    refine remaining_set ht ?_
    unfold Thread.step at ht'
    split at ht'
    · cases ht'
    · rename_i hp; split at ht'
      · injection ht' with e; rw [← e, hp]; rfl
      · cases ht'
    · rename_i hp; injection ht' with e; rw [← e, hp]; rfl
    · rename_i hp; split at ht'
      · injection ht' with e; rw [← e, hp]; rfl
      · cases ht'

theorem exec_remaining {s s' : State} {sched : List Nat} (h : exec s sched = some s') :
    remaining s' + sched.length = remaining s := by
  induction sched generalizing s with
  | nil => cases h; rfl
  | cons i sched ih =>
    obtain ⟨s1, h1, h2⟩ := Option.bind_eq_some_iff.mp h
    have := ih h2
    have := step_remaining h1
    simp only [List.length_cons]
    omega

theorem ordered_python (i : Nat) (k : Nat) (held : List Lk) (p : List Act) (hg : Lk.gil ∉ held)
    (h : Ordered i (.gil :: held) p) : Ordered i (.gil :: held) (python k ++ p) := by
  induction k with
  | zero => exact h
  | succ k ih =>
    have : python (k + 1) ++ p = .rel .gil :: .acq .gil :: (python k ++ p) := by
      simp [python, List.replicate_succ]
    rw [this]
    refine ⟨List.mem_cons_self, ?_⟩
    rw [List.erase_cons_head]
    refine ⟨?_, ih⟩
    intro l hl
    cases l
    · decide
    · decide
    · exact absurd hl hg

/-- A task waits only for workers with a larger number. -/
def Task.ok (i : Nat) : Task → Prop
  | .parallel ws => ∀ j ∈ ws, i < j
  | _ => True

theorem ordered_tasks (i : Nat) (tasks : List Task) (h : ∀ t ∈ tasks, Task.ok i t) :
    Ordered i [] (tasks.map Task.prog).flatten := by
  induction tasks with
  | nil => rfl
  | cons t tasks ih =>
    have ih := ih fun u hu => h u (List.mem_cons_of_mem _ hu)
    rw [List.map_cons, List.flatten_cons]
    cases t with
    | objective k =>
      simp only [Task.prog, List.append_assoc, List.cons_append, List.nil_append]
      refine ⟨by simp, by decide, ordered_python i k _ _ (by decide) ⟨by decide, by decide, ?_⟩⟩
      exact ih
    | other k =>
      simp only [Task.prog, List.append_assoc, List.cons_append, List.nil_append]
      exact ⟨by simp, ordered_python i k _ _ (by decide) ⟨by decide, ih⟩⟩
    | constraint k =>
      simp only [Task.prog, List.append_assoc, List.cons_append, List.nil_append]
      exact ⟨by simp, by decide, ordered_python i k _ _ (by decide) ⟨by decide, by decide, ih⟩⟩
    | constraints k =>
      simp only [Task.prog, List.append_assoc, List.cons_append, List.nil_append]
      exact ⟨by simp, by decide, ordered_python i k _ _ (by decide) ⟨by decide, by decide, ih⟩⟩
    | parallel ws => exact ⟨rfl, h (.parallel ws) List.mem_cons_self, ih⟩

/-- C76 (partial): any number of threads evaluate objectives, gradients, Hessians, bounds, callbacks and constraints in
any order; a thread may wait for workers with larger numbers.  However they are scheduled, as long as some thread has not
finished some thread can go on, and every execution that cannot be continued has finished everything.
Missing: Python functions that start an optimization themselves (`C76_violated`). -/
theorem C76_no_deadlock_partial (work : List (List Task))
    (hwork : ∀ i tasks, work[i]? = some tasks → ∀ t ∈ tasks, Task.ok i t)
    (sched : List Nat) (s : State) (h : exec (work.map thread) sched = some s) :
    ((∃ t ∈ s, t.prog ≠ []) → ∃ i s', step s i = some s') ∧
    ((∀ i, step s i = none) → (∀ t ∈ s, t.prog = []) ∧ sched.length = remaining (work.map thread)) := by
  have ho : AllOrdered (work.map thread) := by
    intro i t ht
    rw [List.getElem?_map] at ht
    obtain ⟨tasks, h1, rfl⟩ := Option.map_eq_some_iff.mp ht
    exact ordered_tasks i tasks (hwork i tasks h1)
  have hs := exec_ordered ho h
  constructor
  · rintro ⟨t, ht, hne⟩
    refine Classical.byContradiction fun hc => hne (progress hs (fun i => ?_) t ht)
    cases hi : step s i with
    | none => rfl
    | some s' => exact absurd ⟨i, s', hi⟩ hc
  · intro hno
    have hp := progress hs hno
    refine ⟨hp, ?_⟩
    have hr := exec_remaining h
    have h0 : remaining s = 0 := by
      exact remaining_zero hp
    omega

/-- A main thread that evaluates, waits for two workers and evaluates again. -/
def twoWorkers : List (List Task) :=
  [[.other 1, .constraints 0, .parallel [1, 2], .objective 2], [.objective 1, .constraint 0], [.constraint 3, .objective 0]]

example : ∀ i tasks, twoWorkers[i]? = some tasks → ∀ t ∈ tasks, Task.ok i t := by
  intro i tasks hi t ht
  match i, hi with
  | 0, hi => cases hi; simp only [List.mem_cons, List.not_mem_nil, or_false] at ht; rcases ht with rfl | rfl | rfl | rfl <;> simp [Task.ok]
  | 1, hi => cases hi; simp only [List.mem_cons, List.not_mem_nil, or_false] at ht; rcases ht with rfl | rfl <;> simp [Task.ok]
  | 2, hi => cases hi; simp only [List.mem_cons, List.not_mem_nil, or_false] at ht; rcases ht with rfl | rfl <;> simp [Task.ok]
  | _ + 3, hi => cases hi

theorem step_other {s s' : State} {i j : Nat} (h : step s i = some s') (hne : i ≠ j) : s'[j]? = s[j]? := by
  unfold step at h
  split at h
  · cases h
  · obtain ⟨t', _, rfl⟩ := Option.map_eq_some_iff.mp h
    rw [List.getElem?_set_ne hne]

theorem stuck_forever {s s' : State} {i : Nat} {t : Thread} {p : List Act} (ht : s[i]? = some t)
    (hp : t.prog = .acq .call :: p) (hh : Lk.call ∈ t.held) (sched : List Nat) (h : exec s sched = some s') :
    s'[i]? = some t := by
  induction sched generalizing s with
  | nil => cases h; exact ht
  | cons j sched ih =>
    obtain ⟨s1, h1, h2⟩ := Option.bind_eq_some_iff.mp h
    refine ih ?_ h2
    by_cases hji : j = i
    · exfalso
      subst hji
      have hf : free s .call = false := by
        unfold free
        rw [List.all_eq_false]
        exact ⟨t, List.mem_of_getElem? ht, by simp [hh]⟩
      unfold step at h1
      rw [ht] at h1
      simp [Thread.step, hp, hf] at h1
    · rw [step_other h1 hji, ht]

theorem exec_append (s : State) (a b : List Nat) : exec s (a ++ b) = (exec s a).bind fun s' => exec s' b := by
  induction a generalizing s with
  | nil => rfl
  | cons i a ih =>
    show (step s i).bind _ = _
    simp only [exec]
    cases step s i with
    | none => rfl
    | some s1 => exact ih s1

theorem exec_python (k : Nat) (p : List Act) :
    exec [⟨[.gil, .call], python k ++ p⟩] (List.replicate (2 * k) 0) = some [⟨[.gil, .call], p⟩] := by
  induction k with
  | zero => rfl
  | succ k ih =>
    have h1 : python (k + 1) ++ p = .rel .gil :: .acq .gil :: (python k ++ p) := by
      simp [python, List.replicate_succ]
    rw [h1, show 2 * (k + 1) = 2 * k + 1 + 1 by omega, List.replicate_succ, List.replicate_succ]
    exact ih

/-- C76 is violated by an objective that starts an optimization: the thread comes to wait for the mutex it holds itself,
and never gets any further, whatever the other threads do. -/
theorem C76_violated (k k' : Nat) :
    ∃ sched s, exec [nested k k'] sched = some s ∧ (∀ i, step s i = none) ∧ (∃ t ∈ s, t.prog ≠ []) ∧
      ∀ others sched' s', exec (s ++ others) sched' = some s' → ∃ t ∈ s', t.prog ≠ [] := by
  refine ⟨0 :: 0 :: (List.replicate (2 * k) 0 ++ [0]), [⟨[.call], (Task.objective k').prog ++
    [.acq .gil, .rel .gil, .rel .call]⟩], ?_, ?_, ?_, ?_⟩
  · have h0 : exec [nested k k'] (0 :: 0 :: (List.replicate (2 * k) 0 ++ [0])) =
        exec [⟨[.gil, .call], python k ++ (.rel .gil :: ((Task.objective k').prog ++
          [.acq .gil, .rel .gil, .rel .call]))⟩] (List.replicate (2 * k) 0 ++ [0]) := by
      simp only [nested, List.append_assoc, List.cons_append, List.nil_append]
      rfl
    rw [h0, exec_append, exec_python]
    rfl
  · intro i
    cases i with
    | zero => rfl
    | succ i => rfl
  · exact ⟨_, List.mem_singleton.mpr rfl, by simp [Task.prog]⟩
  · intro others sched' s' h
    have := stuck_forever (i := 0) (p := ?_) rfl ?_ ?_ sched' h
    · exact ⟨_, List.mem_of_getElem? this, by simp [Task.prog]⟩
    · exact .acq .gil :: (python k' ++ [.rel .gil, .rel .call] ++ [.acq .gil, .rel .gil, .rel .call])
    · simp [Task.prog]
    · exact List.mem_singleton.mpr rfl

end GS.Props
