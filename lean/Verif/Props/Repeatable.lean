/- C130: runs without parallelism are repeatable. -/
import Verif.Props.Schedule
import Verif.Props.Batch
import Verif.Props.PyResult

namespace GS.Props
open GS GS.Py GS.Builders
variable {n : Nat}

/-- The two environments differ at most in what threads do: their number, the way reductions are split, and the
completion orders of parallel tasks. -/
def SameButThreading (env env' : Env n) : Prop :=
  env' = { env with sched := env'.sched
                    threads := env'.threads
                    evalOrder := env'.evalOrder
                    solveOrder := env'.solveOrder }

theorem divLoop_seq (sched sched' : Sched) (fuel round : Nat) (ref cand : List (Pt n)) (ds : List F64) :
    Scatter.divLoop false sched fuel round ref cand ds = Scatter.divLoop false sched' fuel round ref cand ds := by
  induction fuel generalizing round ref cand ds with
  | zero => rfl
  | succ fuel ih =>
    unfold Scatter.divLoop
    rw [show Scatter.argmax false (sched.maxBy round) ds = Scatter.argmax false (sched'.maxBy round) ds from rfl]
    split
    · rfl
    · split
      · rfl
      · exact ih _ _ _ _

theorem scatter_seq (rt : Rt n) (sched sched' : Sched) (s : Scatter n) (hp : s.parallel = false) :
    s.run rt sched = s.run rt sched' := by
  refine run_sched ?_ fun s1 hi => ?_
  · unfold Scatter.init Scatter.diversify
    rw [hp]
    cases s.candidates rt (Scatter.seedPoints s.problem ++ s.customPoints).length with
    | error e => rfl
    | ok x =>
      dsimp only
      rw [divLoop_seq sched sched']
      rfl
  · have : s1.parallel = false := by
      unfold Scatter.init at hi
      split at hi
      · cases hi
      · rename_i s0 ref hd
        split at hi
        · cases hi
        · cases hi
          obtain ⟨cand, hcd, _⟩ := C21_greedy_partial _ _ _ _ _ _ hd
          obtain ⟨k, D, hD, _⟩ := Scatter.candidates_ok hcd
          rw [(Scatter.samples_ok hD).1]
          exact hp
    rw [this]
    rfl

theorem stage2Main_seq {env env' : Env n} (he : SameButThreading env env') (r : Bool) (st : Nat) (ref : List (Pt n))
    (objs : Option (List F64)) (m : M n) (hp : m.opt.par = false) :
    Act.stage2Main env' r st ref objs m = Act.stage2Main env r st ref objs m := by
  have h1 : ∀ t, m.opt.effBatch t st = 1 := fun t => by unfold Opt.effBatch; rw [hp]; rfl
  have hloop : ∀ bs k m, Act.loop env' r st objs 1 k bs m = Act.loop env r st objs 1 k bs m := by
    intro bs
    induction bs with
    | nil => intro k m; rfl
    | cons b bs ih =>
      intro k m
      unfold Act.loop
      have e1 : Act.timedOut env' m.opt k = Act.timedOut env m.opt k := by rw [he]; rfl
      have e2 : Act.procBatch env' r st objs 1 b m = Act.procBatch env r st objs 1 b m := by
        rw [he]
        rfl
      rw [e1, e2]
      split
      · rfl
      · split
        · rfl
        · split
          · rfl
          · exact ih _ _
  unfold Act.stage2Main
  rw [h1, h1, if_neg (by omega), if_neg (by omega)]
  unfold Act.seq
  rw [hloop]
  rw [show Act.obsEnd2 env' = Act.obsEnd2 env by rw [he]; rfl, show Act.saveFinal env' = Act.saveFinal env by
    rw [he]; rfl]

theorem stage2_seq {env env' : Env n} (he : SameButThreading env env') (r : Bool) (ref : List (Pt n))
    (objs : Option (List F64)) (m : M n) (hp : m.opt.par = false) :
    Act.stage2 env' r ref objs m = Act.stage2 env r ref objs m := by
  have h2 : Act.obsStart2 env' = Act.obsStart2 env := by rw [he]; rfl
  have hs : ∀ sd c, Opt.shuffleSeed env' sd c = Opt.shuffleSeed env sd c := fun sd c => by rw [he]; rfl
  have hrt : env'.rt = env.rt := by rw [he]
  have hp2 : (Act.obsStart2 env m).1.opt.par = false := by
    have hr : Reach env m (Act.obsStart2 env m).1 := Steps.obs m
    exact hr.cfg.par.trans hp
  unfold Act.stage2
  rw [h2]
  show Act.seq _ _ m = Act.seq _ _ m
  unfold Act.seq
  split
  · rename_i m' hm
    rw [hm] at hp2
    dsimp only at hp2 ⊢
    split
    · exact stage2Main_seq he _ _ _ _ _ hp2
    · rw [hs]
      split
      · rfl
      · rename_i sd _
        rw [hrt]
        show (match Act.setSeed sd m' with
          | (x, .cont) => Act.stage2Main env' false 0 (env.rt.shuffle sd ref) objs x
          | q => q) = (match Act.setSeed sd m' with
          | (x, .cont) => Act.stage2Main env false 0 (env.rt.shuffle sd ref) objs x
          | q => q)
        exact stage2Main_seq he _ _ _ _ _ hp2
  · rfl

/-- Sequencing with second actions that agree on the states the first leads to. -/
theorem seq_congr {a b b' : Act n} {m : M n} (h : b' (a m).1 = b (a m).1) : (a ;; b') m = (a ;; b) m := by
  unfold Act.seq
  split
  · rename_i m' hm
    rw [hm] at h
    exact h
  · rfl

theorem body_seq {env env' : Env n} (he : SameButThreading env env') (r : Bool) (m : M n) (hp : m.opt.par = false) :
    Act.body env' r m = Act.body env r m := by
  unfold Act.body
  cases r with
  | true => exact stage2_seq he _ _ _ _ hp
  | false =>
    have hsc : Act.scatter env' m.opt = Act.scatter env m.opt := by
      unfold Act.scatter
      rw [show env'.rt = env.rt by rw [he]]
      cases hn : Scatter.new m.opt.problem m.opt.params with
      | error e => rfl
      | ok s =>
        dsimp only
        rw [scatter_seq env.rt env'.sched env.sched]
        cases m.opt.custom <;> exact hp
    rw [if_neg (by decide), if_neg (by decide)]
    unfold Act.stage1
    rw [hsc]
    cases hr : Act.scatter env m.opt with
    | error e => rfl
    | ok x =>
      dsimp only
      have e1 : Act.obsScatter env' x = Act.obsScatter env x := by rw [he]; rfl
      have e2 : Act.obsScatterDone env' (x.ref.map Prod.fst) (x.ref.map Prod.snd) =
          Act.obsScatterDone env (x.ref.map Prod.fst) (x.ref.map Prod.snd) := by rw [he]; rfl
      have e3 : Act.stage1Local env' x.best (x.ref.map Prod.fst) = Act.stage1Local env x.best (x.ref.map Prod.fst) := by
        rw [he]; rfl
      rw [e1, e2, e3]
      have c1 : Steps env (Act.log (.scatter x.evals) : Act n) := Steps.log rfl rfl
      have c2 : Steps env (if m.opt.tracks1 then Act.obsScatter env x else Act.skip) := by
        split
        · exact Steps.obsScatter env x
        · exact Steps.skip env
      have c3 := Steps.obsScatterDone env (x.ref.map Prod.fst) (x.ref.map Prod.snd)
      have c4 := Steps.stage1Local env x.best (x.ref.map Prod.fst)
      refine seq_congr (seq_congr (seq_congr (seq_congr (seq_congr ?_))))
      refine stage2_seq he _ _ _ _ ?_
      show (Act.stage1Local env x.best _ _).1.opt.par = false
      rw [(c4 _).cfg.par, (c3 _).cfg.par, (c2 _).cfg.par, (c1 _).cfg.par]
      exact hp

/-- C130: a run that starts or continues without parallelism depends on nothing the threads do: the same result, the
same events and the same final state for every number of threads and every schedule, whether it succeeds or
fails. -/
theorem C130_sequential {env env' : Env n} {o : Opt n} {loaded : Option (Except CkErr (Ckpt n))}
    (he : SameButThreading env env') (hp : ∀ o1 r, startOpt env o loaded = .ok (o1, r) → o1.par = false) :
    run env' o loaded = run env o loaded := by
  have h0 : Act.obsStart env' ⟨o, 0, 0, []⟩ = Act.obsStart env ⟨o, 0, 0, []⟩ := by rw [he]; rfl
  unfold startOpt at hp
  unfold run
  rw [h0]
  dsimp only
  cases ht : (Act.obsStart env ⟨o, 0, 0, []⟩).1.opt.tryResume loaded with
  | error e => rfl
  | ok x =>
    obtain ⟨o1, r⟩ := x
    dsimp only
    rw [body_seq he]
    exact hp o1 r ht

/-- C130 for new runs: `parallel(false)` is enough. -/
theorem C130_fresh {env env' : Env n} {o : Opt n} (he : SameButThreading env env') (hp : o.par = false) :
    run env' o none = run env o none :=
  C130_sequential he fun o1 r h => by
    rw [(startOpt_fresh h).2]
    exact hp

/-- C130 for Python: without `parallel=True` a repeated call of `optimize` gives the same result and the same observer,
whatever the threads do. -/
theorem C130_python {lower : Char → List Char} {env env' : Env n} {a : Args n} (he : SameButThreading env env')
    (hp : a.parallel.getD false = false) : optimize lower env' a = optimize lower env a := by
  unfold optimize
  cases hs : setup lower a with
  | error e => rfl
  | ok o =>
    dsimp only
    obtain ⟨_, _, _, _, _, _, _, _, _, ep, _⟩ := C72_settings lower a o hs
    rw [C130_fresh he (ep.trans hp)]

/-- A sequential optimizer, and two environments with one and with eight threads. -/
example : Witness.demoSeq.par = false ∧
    SameButThreading (Witness.env Witness.stay) { Witness.env Witness.stay with threads := 8, evalOrder := fun _ => [] } ∧
    (tiltedArgs F64.zero F64.zero).parallel.getD false = false :=
  ⟨by decide +kernel, rfl, rfl⟩

end GS.Props
