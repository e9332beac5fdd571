/- Runs that differ in the clock only: they do the same until one of them is stopped by the time limit. -/
import Verif.Lemmas.Count

namespace GS
open Relation
variable {n : Nat}

/-- The environment with another clock. -/
def Env.withClock (env : Env n) (c : Nat → F64) : Env n := { env with clock := c }

theorem procBatch_clock (env : Env n) (c : Nat → F64) :
    Act.procBatch (env.withClock c) = Act.procBatch env := rfl

theorem stage1_clock (env : Env n) (c : Nat → F64) : Act.stage1 (env.withClock c) = Act.stage1 env := rfl

/-- The events contain no stage-2 local search, no stage-2 evaluation and at most `k` first searches. -/
def Before2 (k : Nat) (t : List (Event n)) : Prop :=
  searched t = [] ∧ evaluated t = [] ∧ (firstSearches t).length ≤ k

/-- Whatever the clock, the action either ends before the main loop of stage 2 or enters it with the same
state, reference points and objectives. -/
def Enters (env : Env n) (r : Bool) (k : Nat) (b : Env n → Act n) (m : M n) : Prop :=
  (∃ m' out, (∀ c, b (env.withClock c) m = (m', out)) ∧ ∃ t, m'.trace = m.trace ++ t ∧ Before2 k t) ∨
  ∃ m1 st ref objs, (∀ c, b (env.withClock c) m =
      Act.stage2Main (env.withClock c) r st ref objs m1) ∧ Reach env m m1 ∧
    ∃ t, m1.trace = m.trace ++ t ∧ Before2 k t

theorem Before2.append {j k : Nat} {a b : List (Event n)} (ha : Before2 j a) (hb : Before2 k b) :
    Before2 (j + k) (a ++ b) := by
  refine ⟨?_, ?_, ?_⟩
  · rw [searched_append, ha.1, hb.1]; rfl
  · rw [evaluated_append, ha.2.1, hb.2.1]; rfl
  · rw [firstSearches_append, List.length_append]
    have := ha.2.2
    have := hb.2.2
    omega

theorem Bound.before {a : Act n} {f : Nat} (h : Bound a f 0 0) (m : M n) :
    ∃ t, (a m).1.trace = m.trace ++ t ∧ Before2 f t := by
  obtain ⟨t, h1, h2, h3, h4⟩ := h m
  exact ⟨t, h1, List.length_eq_zero_iff.1 (by omega), List.length_eq_zero_iff.1 (by omega), h2⟩

theorem Enters.seq {env : Env n} {r : Bool} {f k : Nat} {a : Act n} {b : Env n → Act n}
    (ha : Bound a f 0 0) (hs : Steps env a) (hb : ∀ m, Enters env r k b m) (m : M n) :
    Enters env r (f + k) (fun e => a ;; b e) m := by
  obtain ⟨t, ht, hq⟩ := ha.before m
  by_cases hc : (a m).2 = .cont
  · have e : ∀ c, (a ;; b (env.withClock c)) m = b (env.withClock c) (a m).1 := by
      intro c; rw [Act.seq_def, if_pos hc]
    rcases hb (a m).1 with ⟨m', out, h1, t', h2, h3⟩ | ⟨m1, st, ref, objs, h1, h2, t', h3, h4⟩
    · exact Or.inl ⟨m', out, fun c => (e c).trans (h1 c), t ++ t', by rw [h2, ht, List.append_assoc],
        hq.append h3⟩
    · exact Or.inr ⟨m1, st, ref, objs, fun c => (e c).trans (h1 c), (hs m).trans h2, t ++ t',
        by rw [h3, ht, List.append_assoc], hq.append h4⟩
  · refine Or.inl ⟨(a m).1, (a m).2, fun c => ?_, t, ht, hq.1, hq.2.1, by have := hq.2.2; omega⟩
    show (a ;; b (env.withClock c)) m = _
    rw [Act.seq_def, if_neg hc]

theorem Enters.stage2 (env : Env n) (r : Bool) (ref : List (Pt n)) (objs : Option (List F64)) (m : M n) :
    Enters env r (0 + 0) (fun e => Act.stage2 e r ref objs) m := by
  refine Enters.seq (a := Act.obsStart2 env) (b := fun e m => if r then
      Act.stage2Main e true m.opt.curIter ref objs m
    else match Opt.shuffleSeed e m.opt.params.seed m.opt.curIter with
      | none => (m, .fail .panic)
      | some sd => (Act.setSeed sd ;; Act.stage2Main e false 0 (e.rt.shuffle sd ref) objs) m)
    Bound.obs Steps.obs (fun m => ?_) m
  cases r with
  | true => exact Or.inr ⟨m, m.opt.curIter, ref, objs, fun _ => rfl, ReflTransGen.refl, [], by simp,
      rfl, rfl, by simp [firstSearches]⟩
  | false =>
    cases hadd : Opt.shuffleSeed env m.opt.params.seed m.opt.curIter with
    | none =>
      refine Or.inl ⟨m, .fail .panic, fun c => ?_, [], by simp, rfl, rfl, by simp [firstSearches]⟩
      show (match Opt.shuffleSeed env m.opt.params.seed m.opt.curIter with
        | none => ((m, Out.fail .panic) : M n × Out)
        | some sd => _) = _
      rw [hadd]
    | some sd =>
      refine Or.inr ⟨(Act.setSeed sd m).1, 0, env.rt.shuffle sd ref, objs, fun c => ?_,
        Steps.setSeed env sd m, [], by rw [List.append_nil]; rfl, rfl, rfl, by simp [firstSearches]⟩
      show (match Opt.shuffleSeed env m.opt.params.seed m.opt.curIter with
        | none => ((m, Out.fail .panic) : M n × Out)
        | some sd => (Act.setSeed sd ;; Act.stage2Main (env.withClock c) false 0
            (env.rt.shuffle sd ref) objs) m) = _
      rw [hadd]
      rfl

theorem Enters.body (env : Env n) (r : Bool) (m : M n) : Enters env r 1 (fun e => Act.body e r) m := by
  cases r with
  | true =>
    rcases Enters.stage2 env true (m.opt.curRef.getD []) none { m with uc := m.opt.unchanged } with
      ⟨m', out, h1, t, h2, h3⟩ | ⟨m1, st, ref, objs, h1, h2, t, h3, h4⟩
    · exact Or.inl ⟨m', out, h1, t, h2, h3.1, h3.2.1, by have := h3.2.2; omega⟩
    · exact Or.inr ⟨m1, st, ref, objs, h1, (ReflTransGen.single (Prim.uc m _)).trans h2, t, h3, h4.1, h4.2.1,
        by have := h4.2.2; omega⟩
  | false =>
    have e : ∀ c, Act.body (env.withClock c) false m = match Act.scatter env m.opt with
      | .error e => (m, .fail e)
      | .ok r => (Act.log (.scatter r.evals) ;;
        (if m.opt.tracks1 then Act.obsScatter env r else Act.skip) ;;
        Act.obsScatterDone env (r.ref.map Prod.fst) (r.ref.map Prod.snd) ;;
        Act.stage1Local env r.best (r.ref.map Prod.fst) ;;
        (fun m => ({ m with uc := 0 }, .cont)) ;;
        Act.stage2 (env.withClock c) false (r.ref.map Prod.fst) (some (r.ref.map Prod.snd))) m :=
      fun _ => rfl
    cases hr : Act.scatter env m.opt with
    | error x =>
      refine Or.inl ⟨m, .fail x, fun c => ?_, [], by simp, rfl, rfl, by simp [firstSearches]⟩
      show Act.body (env.withClock c) false m = _
      rw [e, hr]
    | ok res =>
      have hb : Bound (if m.opt.tracks1 = true then Act.obsScatter env res else Act.skip) 0 0 0 := by
        split
        · exact Bound.obsScatter env res
        · exact Bound.skip
      have hs : Steps env (if m.opt.tracks1 = true then Act.obsScatter env res else Act.skip) := by
        split
        · exact Steps.obsScatter env res
        · exact Steps.skip env
      have hx := Enters.seq (a := Act.log (.scatter res.evals)) (r := false) (env := env)
        (b := fun e => (if m.opt.tracks1 then Act.obsScatter env res else Act.skip) ;;
          Act.obsScatterDone env (res.ref.map Prod.fst) (res.ref.map Prod.snd) ;;
          Act.stage1Local env res.best (res.ref.map Prod.fst) ;;
          (fun m => ({ m with uc := 0 }, .cont)) ;;
          Act.stage2 e false (res.ref.map Prod.fst) (some (res.ref.map Prod.snd)))
        (Bound.log rfl) (Steps.log rfl rfl)
        (Enters.seq (b := fun e => Act.obsScatterDone env (res.ref.map Prod.fst) (res.ref.map Prod.snd) ;;
            Act.stage1Local env res.best (res.ref.map Prod.fst) ;;
            (fun m => ({ m with uc := 0 }, .cont)) ;;
            Act.stage2 e false (res.ref.map Prod.fst) (some (res.ref.map Prod.snd))) hb hs
          (Enters.seq (f := 0) (b := fun e => Act.stage1Local env res.best (res.ref.map Prod.fst) ;;
              (fun m => ({ m with uc := 0 }, .cont)) ;;
              Act.stage2 e false (res.ref.map Prod.fst) (some (res.ref.map Prod.snd)))
            (Bound.obs.seq ((Bound.invoke env _).seq Bound.obs)) (Steps.obsScatterDone env _ _)
            (Enters.seq (b := fun e => (fun m => ({ m with uc := 0 }, .cont)) ;;
                Act.stage2 e false (res.ref.map Prod.fst) (some (res.ref.map Prod.snd)))
              (Bound.stage1Local env _ _) (Steps.stage1Local env _ _)
              (Enters.seq (f := 0) (b := fun e => Act.stage2 e false (res.ref.map Prod.fst)
                  (some (res.ref.map Prod.snd)))
                (Bound.same fun _ => rfl) (fun m => ReflTransGen.single (Prim.uc m 0))
                (Enters.stage2 env false (res.ref.map Prod.fst) (some (res.ref.map Prod.snd))))))) m
      have hc : ∀ c, Act.body (env.withClock c) false m = _ := fun c => by rw [e c, hr]
      rcases hx with ⟨m', out, h1, t, h2, h3⟩ | ⟨m1, st, ref, objs, h1, h2, t, h3, h4⟩
      · exact Or.inl ⟨m', out, fun c => (hc c).trans (h1 c), t, h2, h3⟩
      · exact Or.inr ⟨m1, st, ref, objs, fun c => (hc c).trans (h1 c), h2, t, h3, h4⟩

/-! ### The loop over the batches -/

theorem timedOut_cfg {env : Env n} {a b : Opt n} (h : SameCfg a b) (k : Nat) :
    Act.timedOut env b k = Act.timedOut env a k := by
  unfold Act.timedOut; rw [h.maxTime]

/-- The loop ends at a late time test: later batches do not matter. -/
theorem loop_take {env : Env n} (r : Bool) (st : Nat) (objs : Option (List F64)) (eff : Nat) (K : Nat) :
    ∀ (k : Nat) (bs : List (List (Nat × Pt n))) (m : M n), Act.timedOut env m.opt (k + K) = true →
      Act.loop env r st objs eff k bs m = Act.loop env r st objs eff k (bs.take K) m := by
  induction K with
  | zero =>
    intro k bs m h
    cases bs with
    | nil => rfl
    | cons b bs =>
      rw [Nat.add_zero] at h
      unfold Act.loop
      rw [h]; rfl
  | succ K ih =>
    intro k bs m h
    cases bs with
    | nil => rfl
    | cons b bs =>
      rw [List.take_succ_cons]
      unfold Act.loop
      split
      · rfl
      · have hc := Reach.cfg (Steps.procBatch env r st objs eff b m)
        generalize Act.procBatch env r st objs eff b m = res at hc
        obtain ⟨m', out⟩ := res
        have hl : Act.timedOut env m'.opt (k + 1 + K) = true := by
          rw [timedOut_cfg hc, ← h]; congr 1; omega
        cases out <;> dsimp only <;> (try rw [ih (k + 1) bs m' hl])

/-- Compared with a clock that never exceeds the limit, the loop is cut short after some batches. -/
theorem loop_never {env : Env n} {c : Nat → F64} (r : Bool) (st : Nat) (objs : Option (List F64))
    (eff : Nat) (bs : List (List (Nat × Pt n))) : ∀ (k : Nat) (m : M n),
      (∀ k, Act.timedOut (env.withClock c) m.opt k = false) →
      ∃ j, Act.loop env r st objs eff k bs m =
        Act.loop (env.withClock c) r st objs eff k (bs.take j) m := by
  induction bs with
  | nil => exact fun _ _ _ => ⟨0, rfl⟩
  | cons b bs ih =>
    intro k m hn
    by_cases ht : Act.timedOut env m.opt k = true
    · refine ⟨0, ?_⟩
      unfold Act.loop
      rw [ht]; rfl
    · have hc := Reach.cfg (Steps.procBatch env r st objs eff b m)
      have hp : Act.procBatch (env.withClock c) r st objs eff b m = Act.procBatch env r st objs eff b m :=
        rfl
      obtain ⟨j, hj⟩ := ih (k + 1) (Act.procBatch env r st objs eff b m).1
        (fun k => by rw [timedOut_cfg hc]; exact hn k)
      refine ⟨j + 1, ?_⟩
      rw [List.take_succ_cons]
      unfold Act.loop
      rw [if_neg ht, hn k, if_neg (by simp), hp]
      generalize Act.procBatch env r st objs eff b m = res at hj
      obtain ⟨m', out⟩ := res
      cases out <;> dsimp only at hj ⊢ <;> (try rw [hj])

/-- The loop over two groups of batches. -/
theorem loop_append {env : Env n} (r : Bool) (st : Nat) (objs : Option (List F64)) (eff : Nat)
    (as bs : List (List (Nat × Pt n))) : ∀ (k : Nat) (m : M n),
      Act.loop env r st objs eff k (as ++ bs) m = Act.loop env r st objs eff k as m ∨
      ((Act.loop env r st objs eff k as m).2 = .cont ∧
        Act.loop env r st objs eff k (as ++ bs) m =
          Act.loop env r st objs eff (k + as.length) bs (Act.loop env r st objs eff k as m).1) := by
  induction as with
  | nil => exact fun k m => Or.inr ⟨rfl, rfl⟩
  | cons a as ih =>
    intro k m
    rw [List.cons_append]
    have e : ∀ l, Act.loop env r st objs eff k (a :: l) m = if Act.timedOut env m.opt k = true then (m, .cont)
      else match Act.procBatch env r st objs eff a m with
        | (m', .fail e) => (m', .fail e)
        | (m', _) => if m'.opt.targetReached = true then (m', .cont)
          else Act.loop env r st objs eff (k + 1) l m' := fun _ => rfl
    rw [e, e]
    split
    · exact Or.inl rfl
    · generalize Act.procBatch env r st objs eff a m = res
      obtain ⟨m', out⟩ := res
      have h := ih (k + 1) m'
      rw [List.length_cons, show k + (as.length + 1) = k + 1 + as.length by omega]
      cases out with
      | fail e => exact Or.inl rfl
      | cont =>
        dsimp only
        split
        · exact Or.inl rfl
        · exact h
      | stop =>
        dsimp only
        split
        · exact Or.inl rfl
        · exact h

theorem chunks_take_length {α : Type} (k K : Nat) (l : List α) :
    ((chunks k l).take K).flatten.length ≤ K * k := by
  have h := chunksF_length k l.length l
  have : ∀ (bs : List (List α)), (∀ c ∈ bs, c.length ≤ k) → ∀ K, (bs.take K).flatten.length ≤ K * k := by
    intro bs
    induction bs with
    | nil => intro _ K; simp
    | cons b bs ih =>
      intro hb K
      cases K with
      | zero => simp
      | succ K =>
        rw [List.take_succ_cons, List.flatten_cons, List.length_append, Nat.succ_mul]
        have := hb b (by simp)
        have := ih (fun c hc => hb c (by simp [hc])) K
        omega
  exact this _ h K

/-- Stage 2 is bounded by the number of batches before a late time test. -/
theorem late_stage2Main {env : Env n} (r : Bool) (st : Nat) (ref : List (Pt n))
    (objs : Option (List F64)) (K : Nat) (m : M n) (h : Act.timedOut env m.opt K = true) :
    ∃ t, (Act.stage2Main env r st ref objs m).1.trace = m.trace ++ t ∧ (firstSearches t).length ≤ 0 ∧
      (searched t).length ≤ K * m.opt.effBatch env.threads st ∧
      (evaluated t).length ≤ K * m.opt.effBatch env.threads st * evalCost objs := by
  unfold Act.stage2Main
  split
  · exact ⟨[], by simp, by simp [firstSearches], by simp [searched], by simp [evaluated]⟩
  · rw [Act.seq_def, loop_take r st objs _ K 0 _ m (by rw [Nat.zero_add]; exact h), ← Act.seq_def]
    have hb := Bound.loop env r st objs (m.opt.effBatch env.threads st) 0
      ((chunks (m.opt.effBatch env.threads st) (Act.items m.opt.params.iterations st ref)).take K)
    have hk := chunks_take_length (m.opt.effBatch env.threads st) K
      (Act.items m.opt.params.iterations st ref)
    have h2 : Bound (Act.obsEnd2 env ;; Act.saveFinal env) 0 0 0 := Bound.obs.seq (Bound.saveFinal env)
    refine (hb.seq h2).mono (by omega) (by omega) ?_ m
    rw [Nat.add_zero]
    exact Nat.mul_le_mul_right _ hk

/-- The body of a run with a late time test before its `K`-th batch. -/
theorem late_body {env : Env n} (r : Bool) (K : Nat) (m : M n)
    (h : Act.timedOut env m.opt K = true) : ∃ t, (Act.body env r m).1.trace = m.trace ++ t ∧
      ∃ st, (searched t).length ≤ K * m.opt.effBatch env.threads st ∧
        (evaluated t).length ≤ K * m.opt.effBatch env.threads st := by
  rcases Enters.body env r m with ⟨m', out, h1, t, h2, h3⟩ | ⟨m1, st, ref, objs, h1, h2, t, h3, h4⟩
  · refine ⟨t, ?_, 0, ?_⟩
    · rw [← h2, show Act.body env r m = (m', out) from h1 env.clock]
    · rw [h3.1, h3.2.1]; simp
  · have hc := h2.cfg
    obtain ⟨t', a, _, c, d⟩ := late_stage2Main r st ref objs K m1 (by rw [timedOut_cfg hc]; exact h)
    have he : m1.opt.effBatch env.threads st = m.opt.effBatch env.threads st := by
      unfold Opt.effBatch; rw [hc.par, hc.batch, hc.params]
    rw [he] at c d
    refine ⟨t ++ t', ?_, st, ?_, ?_⟩
    · rw [show Act.body env r m = _ from h1 env.clock, ← List.append_assoc, ← h3, ← a]; rfl
    · rw [searched_append, h4.1]; simpa using c
    · rw [evaluated_append, h4.2.1, List.nil_append]
      refine d.trans ?_
      unfold evalCost
      split <;> omega

/-- Stage 2 with the given clock and with one that never exceeds the limit. -/
theorem cut_stage2Main {env : Env n} {c : Nat → F64} (r : Bool) (st : Nat) (ref : List (Pt n))
    (objs : Option (List F64)) (m : M n) (hn : ∀ k, Act.timedOut (env.withClock c) m.opt k = false) :
    Act.stage2Main env r st ref objs m = Act.stage2Main (env.withClock c) r st ref objs m ∨
    ∃ m1, Act.stage2Main env r st ref objs m = (Act.obsEnd2 env ;; Act.saveFinal env) m1 ∧
      ∃ t, (Act.stage2Main (env.withClock c) r st ref objs m).1.trace = m1.trace ++ t := by
  unfold Act.stage2Main
  rw [show (env.withClock c).threads = env.threads from rfl]
  split
  · exact Or.inl rfl
  · generalize chunks (m.opt.effBatch env.threads st) (Act.items m.opt.params.iterations st ref) = bs
    generalize m.opt.effBatch env.threads st = eff
    obtain ⟨j, hj⟩ := loop_never (c := c) r st objs eff bs 0 m hn
    have ha := loop_append (env := env.withClock c) r st objs eff (bs.take j) (bs.drop j) 0 m
    rw [List.take_append_drop, ← hj] at ha
    rcases ha with ha | ⟨h1, h2⟩
    · left
      show (Act.loop env r st objs eff 0 bs ;; (Act.obsEnd2 env ;; Act.saveFinal env)) m =
        (Act.loop (env.withClock c) r st objs eff 0 bs ;; (Act.obsEnd2 env ;; Act.saveFinal env)) m
      rw [Act.seq_def, Act.seq_def (Act.loop (env.withClock c) r st objs eff 0 bs), ha]
    · right
      refine ⟨(Act.loop env r st objs eff 0 bs m).1, ?_, ?_⟩
      · rw [Act.seq_def, if_pos h1]
      · have hs : Steps (env.withClock c) (Act.loop (env.withClock c) r st objs eff
            (0 + (bs.take j).length) (bs.drop j) ;;
            Act.obsEnd2 (env.withClock c) ;; Act.saveFinal (env.withClock c)) :=
          (Steps.loop (env.withClock c) r st objs eff _ _).seq
            (Steps.seq Steps.obs (Steps.saveFinal (env.withClock c)))
        obtain ⟨t, ht⟩ := Reach.trace (hs (Act.loop env r st objs eff 0 bs m).1)
        refine ⟨t, ?_⟩
        rw [Act.seq_def] at ht ⊢
        rw [h2]
        exact ht


end GS
