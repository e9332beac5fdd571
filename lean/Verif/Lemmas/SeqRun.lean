/- The sequential invariant over whole runs. -/
import Verif.Lemmas.Seq

namespace GS
open Relation F64
variable {n : Nat}

theorem chunksF_flatten {α : Type} (k : Nat) (hk : 0 < k) (f : Nat) (l : List α)
    (h : l.length ≤ f) : (chunksF k f l).flatten = l := by
  induction f generalizing l with
  | zero => cases l with
    | nil => rfl
    | cons a l => simp at h
  | succ f ih =>
    cases l with
    | nil => rfl
    | cons a l =>
      simp only [chunksF, List.flatten_cons]
      rw [ih _ (by rw [List.length_drop]; omega), List.take_append_drop]

theorem chunks_flatten {α : Type} (k : Nat) (hk : 0 < k) (l : List α) :
    (chunks k l).flatten = l := chunksF_flatten k hk _ l (Nat.le_refl _)

theorem chunks_one {α : Type} (l : List α) : ∀ c ∈ chunks 1 l, c.length = 1 := by
  have : ∀ (f : Nat) (l : List α), ∀ c ∈ chunksF 1 f l, c.length = 1 := by
    intro f
    induction f with
    | zero => intro l c hc; simp [chunksF] at hc
    | succ f ih =>
      intro l
      cases l with
      | nil => intro c hc; simp [chunksF] at hc
      | cons a l =>
        intro c hc
        simp only [chunksF, List.mem_cons] at hc
        rcases hc with rfl | hc
        · simp
        · exact ih _ c hc
  exact this l.length l

theorem chunksF_length {α : Type} (k : Nat) (f : Nat) (l : List α) :
    ∀ c ∈ chunksF k f l, c.length ≤ k := by
  induction f generalizing l with
  | zero => intro c hc; simp [chunksF] at hc
  | succ f ih =>
    cases l with
    | nil => intro c hc; simp [chunksF] at hc
    | cons a l =>
      intro c hc
      simp only [chunksF, List.mem_cons] at hc
      rcases hc with rfl | hc
      · rw [List.length_take]; omega
      · exact ih _ c hc

theorem items_get (iters st : Nat) (ref : List (Pt n)) (j : Nat) :
    (Act.items iters st ref)[j]? = ((ref.take iters)[st + j]?).map fun p => (st + j, p) := by
  unfold Act.items
  rw [List.getElem?_drop, List.getElem?_map, List.getElem?_zipIdx]
  cases (ref.take iters)[st + j]? <;> simp

theorem items_mem {iters st : Nat} {ref : List (Pt n)} {it : Nat × Pt n}
    (h : it ∈ Act.items iters st ref) : st ≤ it.1 ∧ it.1 < iters ∧ ref[it.1]? = some it.2 := by
  obtain ⟨j, hj⟩ := List.getElem?_of_mem h
  rw [items_get] at hj
  cases hq : (ref.take iters)[st + j]? with
  | none => rw [hq] at hj; cases hj
  | some q =>
    rw [hq] at hj
    simp only [Option.map_some, Option.some.injEq] at hj
    subst hj
    rw [List.getElem?_take] at hq
    split at hq
    · exact ⟨by simp, by assumption, hq⟩
    · cases hq

theorem items_length (iters st : Nat) (ref : List (Pt n)) :
    (Act.items iters st ref).length = min iters ref.length - st := by
  unfold Act.items
  simp

theorem items_points (iters : Nat) (ref : List (Pt n)) :
    (Act.items iters 0 ref).map Prod.snd = ref.take iters := by
  unfold Act.items
  apply List.ext_getElem?
  intro i
  simp only [List.drop_zero, List.map_map, List.getElem?_map, List.getElem?_zipIdx]
  cases (ref.take iters)[i]? <;> rfl

theorem items_iters (iters st : Nat) (ref : List (Pt n)) :
    (Act.items iters st ref).map Prod.fst = (List.range (min iters ref.length)).drop st := by
  apply List.ext_getElem?
  intro i
  rw [List.getElem?_map, items_get, List.getElem?_drop, List.getElem?_take]
  by_cases h : st + i < min iters ref.length
  · rw [List.getElem?_range h, if_pos (by omega), List.getElem?_eq_getElem (by omega)]; rfl
  · rw [List.getElem?_eq_none (l := List.range _) (by simp; omega)]
    split
    · rw [List.getElem?_eq_none (by omega)]; rfl
    · rfl

variable {env : Env n} {o : Opt n} {w0 : Nat} {V : Nat → Pt n → F64 → Prop}

theorem saveFinal_fail (env : Env n) (m : M n) (e : Err) (h : (Act.saveFinal env m).2 = .fail e) :
    ∃ c, e = .checkpoint c := by
  unfold Act.saveFinal at h
  split at h
  · cases h
  · unfold Act.writeCkpt at h
    dsimp only at h
    split at h
    · cases h; exact ⟨_, rfl⟩
    · cases h

/-- Sequential stage 2 on the points `ref`. -/
theorem stage2Main_post {m : M n} (objs : Option (List F64)) (h : SeqInv env o w0 V m)
    (hne : o.solset ≠ some []) (ht : m.opt.targetReached = false) (r : Bool) (st : Nat)
    (ref : List (Pt n)) (heff : ¬ 1 < o.effBatch env.threads st)
    (hV : ∀ it ∈ Act.items o.params.iterations st ref, ∀ v,
      Act.meritValue o objs it.1 it.2 = .ok v → V it.1 it.2 v) :
    LoopPost env o w0 V 0 m (Act.items o.params.iterations st ref)
      (Act.stage2Main env r st ref objs m) := by
  unfold Act.stage2Main
  have hcfg := (h.hist hne).cfg
  have he : m.opt.effBatch env.threads st = o.effBatch env.threads st := by
    unfold Opt.effBatch; rw [hcfg.par, hcfg.batch, hcfg.params]
  rw [he, hcfg.params]
  split
  · exact ⟨h, (fun hc => by cases hc), (fun hc => by cases hc), ⟨0, by simp⟩, fun _ _ => Or.inl ht⟩
  · rename_i h0
    have hfl := chunks_flatten (o.effBatch env.threads st) (by omega)
      (Act.items o.params.iterations st ref)
    have hl := loop_post objs h hne ht (chunks (o.effBatch env.threads st)
      (Act.items o.params.iterations st ref)) r st (o.effBatch env.threads st) 0 heff
      (by rw [hfl]; exact hV) (by
        rw [hfl]
        intro it hit
        have := (items_mem hit).1
        simp only [Bool.and_eq_false_iff, decide_eq_false_iff_not]
        right; omega) (by
        rw [show o.effBatch env.threads st = 1 by omega]
        exact chunks_one _)
    rw [hfl] at hl
    rw [Act.seq_def]
    split
    · rename_i hc
      have hqa := (QuietAct.obsEnd2 env).seq (QuietAct.saveFinal env)
      have hst : Steps env (Act.obsEnd2 env ;; Act.saveFinal env) :=
        Steps.seq Steps.obs (Steps.saveFinal env)
      have hq := hqa.quiet (Act.loop env r st objs (o.effBatch env.threads st) 0
        (chunks (o.effBatch env.threads st) (Act.items o.params.iterations st ref)) m).1
      refine ⟨hl.inv.quiet hq (hst _), hqa.nostop _, fun _ => ?_, ?_, fun e he => ?_⟩
      · rw [hq.target, hq.examined]
        exact hl.cont hc
      · rw [hq.examined]; exact hl.pref
      · rw [Act.seq_def, show (Act.obsEnd2 (n := n) env _).2 = .cont from rfl, if_pos rfl] at he
        exact Or.inr (saveFinal_fail env _ e he)
    · exact hl

theorem loopPost_pre {m m1 : M n} {its : List (Nat × Pt n)} {r : M n × Out} (q : Quiet m m1)
    {k : Nat} (h : LoopPost env o w0 V k m1 its r) : LoopPost env o w0 V k m its r := by
  refine ⟨h.inv, h.nostop, fun hc => ?_, ?_, h.fail⟩
  · rw [← q.examined]; exact h.cont hc
  · rw [← q.examined]; exact h.pref

/-- A resumed sequential run. -/
theorem resumed_post (hne : o.solset ≠ some []) (ht : o.targetReached = false)
    (heff : ¬ 1 < o.effBatch env.threads o.curIter) :
    LoopPost env o o.unchanged (fun _ p v => o.problem.objective p = .ok v) 0 ⟨o, 0, 0, []⟩
      (Act.items o.params.iterations o.curIter (o.curRef.getD [])) (Act.body env true ⟨o, 0, 0, []⟩) := by
  unfold Act.body
  rw [if_pos rfl]
  unfold Act.stage2
  rw [Act.seq_def, show (Act.obsStart2 (n := n) env _).2 = .cont from rfl, if_pos rfl]
  have h0 : SeqInv env o o.unchanged (fun _ p v => o.problem.objective p = .ok v)
      (⟨o, o.unchanged, 0, []⟩ : M n) := by
    refine ⟨⟨o.unchanged, 0, ReflTransGen.refl⟩, rfl, rfl, ?_, rfl, fun h => h⟩
    intro pre e post h
    simp at h
  have hq := (QuietAct.obsStart2 env).quiet (⟨o, o.unchanged, 0, []⟩ : M n)
  have h1 := h0.quiet hq (Steps.obs (env := env) _)
  simp only [if_true]
  have hcur : (Act.obsStart2 env (⟨o, o.unchanged, 0, []⟩ : M n)).1.opt.curIter = o.curIter := rfl
  have := stage2Main_post none h1 hne (hq.target.trans ht) true o.curIter (o.curRef.getD []) heff
    (by
      intro it _ v hv
      unfold Act.meritValue at hv
      dsimp only at hv
      split at hv
      · rename_i w hw
        cases hv
        exact hw
      · cases hv)
  have h2 := loopPost_pre (m := ⟨o, o.unchanged, 0, []⟩) hq this
  exact ⟨h2.inv, h2.nostop, h2.cont, h2.pref, h2.fail⟩

/-- The merit values used in a fresh run. -/
def FreshValue (env : Env n) (o : Opt n) (it : Nat) (_ : Pt n) (v : F64) : Prop :=
  ∃ r, Act.scatter env o = .ok r ∧
    (r.ref.map Prod.snd)[it % r.ref.length]? = some v

/-- Result of the body of a fresh run with sequential stage 2. -/
structure FreshPost (env : Env n) (o : Opt n) (r : M n × Out) : Prop where
  inv : SeqInv env o 0 (FreshValue env o) r.1
  shape : (examined r.1.trace = [] ∧ r.2 ≠ .cont ∧
      (r.2 = .stop → r.1.opt.targetReached = true)) ∨
    ∃ sc sd, Act.scatter env o = .ok sc ∧
      Opt.shuffleSeed env o.params.seed o.curIter = some sd ∧ r.2 ≠ .stop ∧
      (∃ k, examined r.1.trace =
        (Act.items o.params.iterations 0 (env.rt.shuffle sd (sc.ref.map Prod.fst))).take k) ∧
      (r.2 = .cont → r.1.opt.targetReached = true ∨
        (∃ j, FirstLate env o 0 j ∧ examined r.1.trace = (Act.items o.params.iterations 0
          (env.rt.shuffle sd (sc.ref.map Prod.fst))).take j) ∨
        (examined r.1.trace =
          Act.items o.params.iterations 0 (env.rt.shuffle sd (sc.ref.map Prod.fst)) ∧
          ∀ i, i < (Act.items o.params.iterations 0 (env.rt.shuffle sd (sc.ref.map Prod.fst))).length →
            Act.timedOut env o (0 + i) = false))
  fail : o.targetReached = false → ∀ e, r.2 = .fail e →
    r.1.opt.targetReached = false ∨ ∃ c, e = .checkpoint c

/-- Stage 1 has finished quietly, with its local search done. -/
structure Stage1Post (env : Env n) (o : Opt n) (V : Nat → Pt n → F64 → Prop) (r : M n × Out) :
    Prop where
  inv : SeqInv env o 0 V r.1
  uc : r.1.uc = 0
  ex : examined r.1.trace = []
  cont : r.2 = .cont → r.1.opt.targetReached = false
  stop : r.2 = .stop → r.1.opt.targetReached = true
  cur : r.2 = .cont → r.1.opt.curIter = o.curIter
  fail : o.targetReached = false → ∀ e, r.2 = .fail e →
    r.1.opt.targetReached = false ∨ ∃ c, e = .checkpoint c

/-- Actions that keep `curIter`. -/
def KeepIter (a : Act n) : Prop := ∀ m, (a m).1.opt.curIter = m.opt.curIter

theorem KeepIter.seq {a b : Act n} (ha : KeepIter a) (hb : KeepIter b) : KeepIter (a ;; b) := by
  intro m
  rw [Act.seq_def]
  split
  · rw [hb, ha]
  · exact ha m

theorem KeepIter.obs {f : Opt n → Obs n → Obs n} : KeepIter (Act.modify fun o => o.mapObs (f o)) :=
  fun _ => rfl

theorem KeepIter.invoke (env : Env n) (k : Nat) : KeepIter (Act.invoke env k) := by
  intro m
  unfold Act.invoke
  split <;> rfl

theorem KeepIter.skip : KeepIter (Act.skip (n := n)) := fun _ => rfl

theorem Opt.process_curIter (o : Opt n) (s : Sol n) : (o.process s).1.curIter = o.curIter := by
  unfold Opt.process
  dsimp only
  split
  · rfl
  · dsimp only [Opt.mapObs]
    (repeat' split) <;> rfl

theorem invoke_cont (env : Env n) (k : Nat) (m : M n) : (Act.invoke env k m).2 = .cont := by
  unfold Act.invoke
  split <;> rfl

theorem obsEnd1_cont (env : Env n) (m : M n) : (Act.obsEnd1 env m).2 = .cont := by
  unfold Act.obsEnd1
  rw [Act.seq_def, show (Act.modify (n := n) _ _).2 = .cont from rfl, if_pos rfl, Act.seq_def,
    invoke_cont, if_pos rfl]
  rfl

theorem obsLocal1_cont (env : Env n) (s : Sol n) (k : Nat) (m : M n) :
    (Act.obsLocal1 env s k m).2 = .cont := by
  unfold Act.obsLocal1
  rw [Act.seq_def, show (Act.modify (n := n) _ _).2 = .cont from rfl, if_pos rfl, invoke_cont]

theorem stage1Tail_post {V : Nat → Pt n → F64 → Prop} {m3 : M n} (h3 : SeqInv env o 0 V m3)
    (huc3 : m3.uc = 0) (hxm3 : examined m3.trace = []) (hcm3 : m3.opt.curIter = o.curIter)
    (ref : List (Pt n)) : Stage1Post env o V
      (if m3.opt.targetReached = true then (Act.obsEnd1 env ;; fun m'' => (m'', .stop)) m3
        else (Act.storeRef ref ;; Act.obsEnd1 env) m3) := by
  have ke : KeepIter (Act.obsEnd1 env) := KeepIter.seq KeepIter.obs
    (KeepIter.seq (KeepIter.invoke env _) KeepIter.obs)
  split
  · rename_i htt
    have hq3 := (QuietAct.obsEnd1 env).quiet m3
    have h4 := h3.quiet hq3 (Steps.obsEnd1 env m3)
    rw [Act.seq_def]
    split
    · exact ⟨h4, hq3.uc.trans huc3, hq3.examined.trans hxm3, (fun hc => by cases hc),
        fun _ => hq3.target.trans htt, (fun hc => by cases hc), (fun _ _ hc => by cases hc)⟩
    · rename_i hnc
      exact absurd (obsEnd1_cont env m3) hnc
  · rename_i htt
    have hqs := (QuietAct.storeRef ref).seq (QuietAct.obsEnd1 env)
    have hq3 := hqs.quiet m3
    have h4 := h3.quiet hq3 (Steps.seq (Steps.storeRef env ref) (Steps.obsEnd1 env) m3)
    have kk : KeepIter (Act.storeRef ref ;; Act.obsEnd1 env) :=
      KeepIter.seq (fun _ => rfl) ke
    exact ⟨h4, hq3.uc.trans huc3, hq3.examined.trans hxm3,
      fun _ => hq3.target.trans (by simpa using htt),
      fun hc => absurd hc (hqs.nostop m3), fun _ => (kk m3).trans hcm3,
      fun _ _ _ => Or.inl (hq3.target.trans (by simpa using htt))⟩

theorem stage1Local_post {V : Nat → Pt n → F64 → Prop} {m : M n} (h : SeqInv env o 0 V m)
    (huc : m.uc = 0) (hx : examined m.trace = []) (hpr : procs m.trace = [])
    (hc : m.opt.curIter = o.curIter) (hne : o.solset ≠ some [])
    (hset : m.opt.targetReached = o.targetReached) (p : Pt n)
    (ref : List (Pt n)) : Stage1Post env o V (Act.stage1Local env p ref m) := by
  unfold Act.stage1Local
  have hs : ∀ (t : F64) (r : Except LErr (Sol n)), t = thrStep m.opt.merit.threshold
      (.search none p r : Event n) → r = (env.solve m.opt.lsType m.opt.lsConfig p).map Prod.fst →
      SeqInv env o 0 V
      { m with opt := { m.opt with merit := m.opt.merit.update t }
               trace := m.trace ++ [.search none p r] } := by
    intro t r htr hr
    obtain ⟨u, sv, h0⟩ := h.reach
    refine ⟨⟨u, sv, h0.trans ?_⟩, ?_, ?_, h.just.snoc trivial, ?_, h.wait⟩
    · exact (reach_opt env m { m.opt with merit := m.opt.merit.update t } (by constructor <;> rfl) rfl
        rfl).trans (reach_log env _ (.search none p r) rfl (Or.inl hr))
    · show t = thrAfter _ (_ ++ [_])
      rw [thrAfter_snoc, ← h.thr, htr]
    · show m.uc = waitAfter _ (_ ++ [_])
      rw [waitAfter_snoc, ← h.uc]; rfl
    · show searched (_ ++ [_]) = passed (_ ++ [_])
      rw [searched_append, passed_append, h.srch]; rfl
  split
  · rename_i e he
    have := hs m.opt.merit.threshold (.error e) rfl (by rw [he]; rfl)
    refine ⟨this, huc, ?_, (fun hc => by cases hc), (fun hc => by cases hc), (fun hc => by cases hc),
      fun h _ _ => Or.inl (hset.trans h)⟩
    show examined (_ ++ [_]) = _
    rw [examined_append, hx]; rfl
  · rename_i s evals he
    have h1 := hs s.objective (.ok s) rfl (by rw [he]; rfl)
    rw [Act.seq_def, show (Act.setThreshold (n := n) _ _).2 = .cont from rfl, if_pos rfl]
    have e1 : (Act.setThreshold s.objective ({ m with
        trace := m.trace ++ [.search none p (.ok s)] } : M n)).1 =
      { m with opt := { m.opt with merit := m.opt.merit.update s.objective }
               trace := m.trace ++ [.search none p (.ok s)] } := rfl
    rw [e1]
    have hx1 : examined (m.trace ++ [.search none p (.ok s)]) = [] := by
      rw [examined_append, hx]; rfl
    generalize hm1 : ({ m with opt := { m.opt with merit := m.opt.merit.update s.objective }
                               trace := m.trace ++ [.search none p (.ok s)] } : M n) = m1 at h1
    have huc1 : m1.uc = 0 := by rw [← hm1]; exact huc
    have hc1 : m1.opt.curIter = o.curIter := by rw [← hm1]; exact hc
    have hxm1 : examined m1.trace = [] := by rw [← hm1]; exact hx1
    have hpm1 : procs m1.trace = [] := by
      rw [← hm1]
      show procs (_ ++ [_]) = _
      rw [procs_append, hpr]; rfl
    have hmem1 : Event.search none p (.ok s) ∈ m1.trace := by rw [← hm1]; simp
    generalize (if m.opt.tracks1 = true then evals else 0) = ev
    rw [Act.seq_def]
    have hqa := QuietAct.obsLocal1 env s ev
    have hsa := Steps.obsLocal1 env s ev
    have hka : KeepIter (Act.obsLocal1 env s ev) :=
      KeepIter.seq KeepIter.obs (KeepIter.invoke env _)
    have hq := hqa.quiet m1
    have h2 := h1.quiet hq (hsa m1)
    split
    · have hmem2 : Event.search none p (.ok s) ∈
          (Act.obsLocal1 env s ev m1).1.trace := by
        obtain ⟨t, ht, _⟩ := hq.tr
        rw [ht]; simp [hmem1]
      have hx2 := hq.examined.trans hxm1
      have hp2 := hq.procs.trans hpm1
      have huc2 := hq.uc.trans huc1
      have hc2 := (hka m1).trans hc1
      generalize (Act.obsLocal1 env s ev m1).1 = m2 at *
      have h3 := h2.process s ⟨none, p, hmem2⟩ (Or.inr ⟨hx2, hp2⟩)
      unfold Act.process
      dsimp only
      have hx3 : examined (m2.trace ++ [.processed s (m2.opt.process s).2]) = [] := by
        rw [examined_append, hx2]; rfl
      split
      · rename_i hpan
        exact absurd hpan ((h3.hist hne).genuine s _ (by simp)).1
      · have hc3 : (m2.opt.process s).1.curIter = o.curIter := by rw [Opt.process_curIter, hc2]
        exact stage1Tail_post h3 huc2 hx3 hc3 ref
    · rename_i hnc
      exact absurd (obsLocal1_cont env s ev m1) hnc

/-- A fresh sequential run. -/
theorem fresh_post (hne : o.solset ≠ some []) (heff : ¬ 1 < o.effBatch env.threads 0) :
    FreshPost env o (Act.body env false ⟨o, 0, 0, []⟩) := by
  unfold Act.body
  rw [if_neg (by simp)]
  unfold Act.stage1
  have h0 : SeqInv env o 0 (FreshValue env o) (⟨o, 0, 0, []⟩ : M n) := by
    refine ⟨⟨0, 0, ReflTransGen.refl⟩, rfl, rfl, ?_, rfl, fun h => h⟩
    intro pre e post h
    simp at h
  split
  · exact ⟨h0, Or.inl ⟨rfl, (fun hc => by cases hc), (fun hc => by cases hc)⟩,
      fun h _ _ => Or.inl h⟩
  · rename_i r hr
    dsimp only
    have hqa : QuietAct (Act.log (n := n) (.scatter r.evals)) := QuietAct.log rfl
    have hsa : Steps env (Act.log (n := n) (.scatter r.evals)) := Steps.log rfl rfl
    have hka : KeepIter (Act.log (n := n) (.scatter r.evals)) := fun _ => rfl
    have hqb : QuietAct (if o.tracks1 = true then Act.obsScatter env r else Act.skip) := by
      split
      · exact QuietAct.obsScatter env r
      · exact QuietAct.skip
    have hsb : Steps env (if o.tracks1 = true then Act.obsScatter env r else Act.skip) := by
      split
      · exact Steps.obsScatter env r
      · exact Steps.skip env
    have hkb : KeepIter (if o.tracks1 = true then Act.obsScatter env r else Act.skip) := by
      split
      · exact KeepIter.seq KeepIter.obs (KeepIter.seq (KeepIter.invoke env _) (KeepIter.seq
          KeepIter.obs (KeepIter.seq (KeepIter.invoke env _) (KeepIter.seq KeepIter.obs
            (KeepIter.invoke env _)))))
      · exact KeepIter.skip
    have hqc := QuietAct.obsScatterDone env (r.ref.map Prod.fst) (r.ref.map Prod.snd)
    have hsc := Steps.obsScatterDone env (r.ref.map Prod.fst) (r.ref.map Prod.snd)
    have hkc : KeepIter (Act.obsScatterDone env (r.ref.map Prod.fst) (r.ref.map Prod.snd)) :=
      KeepIter.seq KeepIter.obs (KeepIter.seq (KeepIter.invoke env _) KeepIter.obs)
    -- quiet prefix
    have pre : ∀ (a b : Act n) (m : M n), QuietAct a → Steps env a → KeepIter a →
        SeqInv env o 0 (FreshValue env o) m → m.uc = 0 → examined m.trace = [] ∧ procs m.trace = [] →
        m.opt.curIter = o.curIter → m.opt.targetReached = o.targetReached →
        (∀ m', SeqInv env o 0 (FreshValue env o) m' → m'.uc = 0 →
          examined m'.trace = [] ∧ procs m'.trace = [] → m'.opt.curIter = o.curIter →
          m'.opt.targetReached = o.targetReached → FreshPost env o (b m')) →
        FreshPost env o ((a ;; b) m) := by
      intro a b m ha hs hk h1 h2 h3 h4 h5 hb
      rw [Act.seq_def]
      have q := ha.quiet m
      split
      · exact hb _ (h1.quiet q (hs m)) (q.uc.trans h2) ⟨q.examined.trans h3.1, q.procs.trans h3.2⟩
          ((hk m).trans h4) (q.target.trans h5)
      · rename_i hnc
        exact ⟨h1.quiet q (hs m), Or.inl ⟨q.examined.trans h3.1, hnc,
          fun hc => absurd hc (ha.nostop m)⟩, 
          fun h _ _ => Or.inl (q.target.trans (h5.trans h))⟩
    refine pre _ _ _ hqa hsa hka h0 rfl ⟨rfl, rfl⟩ rfl rfl fun m1 a1 a2 a3 a4 a5 => ?_
    refine pre _ _ _ hqb hsb hkb a1 a2 a3 a4 a5 fun m2 b1 b2 b3 b4 b5 => ?_
    refine pre _ _ _ hqc hsc hkc b1 b2 b3 b4 b5 fun m3 c1 c2 c3 c4 c5 => ?_
    have hl := stage1Local_post (env := env) c1 c2 c3.1 c3.2 c4 hne c5 r.best (r.ref.map Prod.fst)
    rw [Act.seq_def]
    split
    · rename_i hcont
      have ht := hl.cont hcont
      have hcur := hl.cur hcont
      have hinv := hl.inv
      have huc := hl.uc
      have hex := hl.ex
      generalize (Act.stage1Local env r.best (r.ref.map Prod.fst) m3).1 = m4 at *
      have hid : ({ m4 with uc := 0 } : M n) = m4 := by rw [← huc]
      rw [Act.seq_def]
      dsimp only
      rw [if_pos rfl, hid]
      unfold Act.stage2
      rw [Act.seq_def, show (Act.obsStart2 (n := n) env _).2 = .cont from rfl, if_pos rfl]
      have hq := (QuietAct.obsStart2 env).quiet m4
      have h5 := hinv.quiet hq (Steps.obs (env := env) _)
      have hcur5 : (Act.obsStart2 env m4).1.opt.curIter = o.curIter := hcur
      have hpar5 : (Act.obsStart2 env m4).1.opt.params = o.params := (h5.hist hne).cfg.params
      have ht5 := hq.target.trans ht
      have hex5 := hq.examined.trans hex
      generalize (Act.obsStart2 env m4).1 = m5 at *
      simp only [Bool.false_eq_true, if_false]
      rw [hcur5, hpar5]
      split
      · exact ⟨h5, Or.inl ⟨hex5, (fun hc => by cases hc), (fun hc => by cases hc)⟩, 
          fun _ _ _ => Or.inl ht5⟩
      · rename_i sd hsd
        rw [Act.seq_def, show (Act.setSeed (n := n) sd _).2 = .cont from rfl, if_pos rfl]
        have hq6 := (QuietAct.setSeed (n := n) sd).quiet m5
        have h6 := h5.quiet hq6 (Steps.setSeed env sd m5)
        have hp := stage2Main_post (some (r.ref.map Prod.snd)) h6 hne (hq6.target.trans ht5) false 0
          (env.rt.shuffle sd (r.ref.map Prod.fst)) heff (by
            intro it _ v hv
            unfold Act.meritValue at hv
            dsimp only at hv
            rw [List.length_map] at hv
            split at hv
            · rename_i w hw
              cases hv
              exact ⟨r, hr, hw⟩
            · cases hv)
        have hx6 := hq6.examined.trans hex5
        refine ⟨hp.inv, Or.inr ⟨r, sd, hr, hsd, hp.nostop, ?_, ?_⟩, fun _ => hp.fail⟩
        · obtain ⟨k, hk⟩ := hp.pref
          exact ⟨k, by rw [hk, hx6, List.nil_append]⟩
        · intro hc
          have := hp.cont hc
          rwa [hx6, List.nil_append] at this
    · rename_i hnc
      exact ⟨hl.inv, Or.inl ⟨hl.ex, hnc, hl.stop⟩, hl.fail⟩

end GS
