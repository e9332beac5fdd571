/- The invariant of `Verif.Lemmas.AllRun` over whole runs, for every batch size. -/
import Verif.Lemmas.AllBatch

namespace GS
open Relation F64
variable {n : Nat}

/-- Result of stage 2 over the iterations `its` in batches of `eff`, the time being tested from tick `k`. -/
structure APost (env : Env n) (o : Opt n) (w0 : Nat) (V : Nat → Pt n → F64 → Prop) (bn : Nat → Nat)
    (eff k : Nat) (m : M n) (its : List (Nat × Pt n)) (r : M n × Out) : Prop where
  good : MeetRun env o w0 V bn r.1
  nostop : r.2 ≠ .stop
  cont : r.2 = .cont →
    (r.1.opt.targetReached = true ∧ ∃ pv ps fs rj, AllInv env o w0 V bn r.1 pv ps fs rj) ∨
    (AllInv env o w0 V bn r.1 [] [] [] [] ∧ r.1.opt.targetReached = false ∧
      ((∃ j, FirstLate env o k j ∧ examined r.1.trace = examined m.trace ++ its.take (j * eff)) ∨
       (examined r.1.trace = examined m.trace ++ its ∧
        ∀ i, i * eff < its.length → Act.timedOut env o (k + i) = false)))
  pref : ∃ k, examined r.1.trace = examined m.trace ++ its.take k
  fail : ∀ e, r.2 = .fail e → r.1.opt.targetReached = false ∨ (∃ c, e = .checkpoint c) ∨
    (e = .panic ∧ ZeroFrequency r.1.opt)

variable {env : Env n} {o : Opt n} {w0 : Nat} {V : Nat → Pt n → F64 → Prop} {bn : Nat → Nat}

theorem Consec.sorted {a : Nat} {l : List (Nat × Pt n)} (h : Consec a l) :
    (l.map Prod.fst).Pairwise (· < ·) := by
  unfold Consec at h
  rw [h]
  exact List.pairwise_lt_range'

theorem Consec.mem {a : Nat} {l : List (Nat × Pt n)} (h : Consec a l) {it : Nat × Pt n} (hit : it ∈ l) :
    a ≤ it.1 ∧ it.1 < a + l.length := by
  have : it.1 ∈ l.map Prod.fst := List.mem_map.2 ⟨it, hit, rfl⟩
  unfold Consec at h
  rw [h, List.mem_range'_1] at this
  exact this

theorem procBatch_post {objs : Option (List F64)} {b : Nat} {its : List (Nat × Pt n)} {m : M n}
    (h : BatchStart env o w0 V bn objs b its m) (hne : o.solset ≠ some []) (r : Bool) (st eff : Nat)
    (hst : ∀ it ∈ its, st ≤ it.1) (hone : ¬ 1 < eff → its.length = 1) :
    BPost env o w0 V bn m its (Act.procBatch env r st objs eff its m) := by
  unfold Act.procBatch
  split
  · have : (if r = true then its.filter (fun it => decide (st ≤ it.1)) else its) = its := by
      split
      · exact List.filter_eq_self.2 fun it hit => decide_eq_true (hst it hit)
      · rfl
    unfold Act.batchPar
    rw [this]
    exact batchParItems_post h hne
  · rename_i heff
    obtain ⟨it, rfl⟩ := List.length_eq_one_iff.1 (hone heff)
    unfold Act.batchSeq
    rw [List.map_cons, List.map_nil]
    unfold Act.all
    have h1 := stepSeq_post' h hne r st (by
      have := hst it (by simp)
      simp only [Bool.and_eq_false_iff, decide_eq_false_iff_not]
      right; omega)
    rw [Act.seq_def]
    split
    · rename_i hc
      have : Act.all ([] : List (Act n)) (Act.stepSeq env r st objs it m).1 =
        ((Act.stepSeq env r st objs it m).1, .cont) := rfl
      rw [this]
      exact ⟨h1.good, fun _ => h1.cont hc, (fun hc => by cases hc), h1.pref, (fun _ hc => by cases hc)⟩
    · exact h1

theorem loop_post' (objs : Option (List F64)) (hne : o.solset ≠ some []) (r : Bool) (st eff : Nat)
    (heff : 0 < eff) (f k c : Nat) (l : List (Nat × Pt n)) (hlen : l.length ≤ f)
    (hl : Consec (st + c * eff) l) {m : M n}
    (h : AllInv env o w0 V (batchNo st eff) m [] [] [] []) (ht : m.opt.targetReached = false)
    (hx : ∀ x ∈ (examined m.trace).map Prod.fst, x < st + c * eff ∧ (c = 0 → False))
    (hV : ∀ it ∈ l, ∀ v, Act.meritValue o objs it.1 it.2 = .ok v → V it.1 it.2 v) :
    APost env o w0 V (batchNo st eff) eff k m l
      (Act.loop env r st objs eff k (chunksF eff f l) m) := by
  induction f generalizing k c l m with
  | zero =>
    have : l = [] := List.length_eq_zero_iff.1 (by omega)
    subst this
    have e : ∀ m, Act.loop env r st objs eff k (chunksF eff 0 ([] : List (Nat × Pt n))) m = (m, .cont) :=
      fun _ => rfl
    rw [e]
    exact ⟨h.good, (fun hc => by cases hc), fun _ => Or.inr ⟨h, ht, Or.inr ⟨by simp, by simp⟩⟩,
      ⟨0, by simp⟩, fun _ _ => Or.inl ht⟩
  | succ f ih =>
    cases l with
    | nil =>
      have e : ∀ m, Act.loop env r st objs eff k (chunksF eff (f + 1) ([] : List (Nat × Pt n))) m =
        (m, .cont) := fun _ => rfl
      rw [e]
      exact ⟨h.good, (fun hc => by cases hc), fun _ => Or.inr ⟨h, ht, Or.inr ⟨by simp, by simp⟩⟩,
        ⟨0, by simp⟩, fun _ _ => Or.inl ht⟩
    | cons a l =>
      unfold chunksF Act.loop
      have hto : Act.timedOut env m.opt k = Act.timedOut env o k := by
        unfold Act.timedOut; rw [(h.hist hne).cfg.maxTime]
      rw [hto]
      generalize hL : a :: l = L at *
      have hLpos : 0 < L.length := by rw [← hL]; simp
      split
      · rename_i htt
        exact ⟨h.good, (fun hc => by cases hc), fun _ => Or.inr ⟨h, ht, Or.inl ⟨0, ⟨htt,
          fun i hi => by omega⟩, by simp⟩⟩, ⟨0, by simp⟩, fun _ _ => Or.inl ht⟩
      · rename_i hnt
        have hlt := hl.take eff
        have hmem : ∀ it ∈ L.take eff, st + c * eff ≤ it.1 ∧ it.1 < st + (c + 1) * eff := by
          intro it hit
          have := hlt it hit
          rw [Nat.succ_mul]
          omega
        have hnum : ∀ it ∈ L.take eff, batchNo st eff it.1 = c := by
          intro it hit
          have := hmem it hit
          unfold batchNo
          rw [Nat.div_eq_iff heff]
          rw [Nat.succ_mul] at this
          omega
        have hbs : BatchStart env o w0 V (batchNo st eff) objs c (L.take eff) m := by
          refine ⟨h, ht, fun it hit => hV it (List.mem_of_mem_take hit), hnum, ?_, ?_, ?_⟩
          · rw [List.map_take]
            exact hl.sorted.sublist (List.take_sublist _ _)
          · intro x hxm it hit
            have := (hx x hxm).1
            have := (hmem it hit).1
            omega
          · intro x hxm
            obtain ⟨h1, h2⟩ := hx x hxm
            have hc : 0 < c := Nat.pos_of_ne_zero fun hz => h2 hz
            unfold batchNo
            rw [Nat.div_lt_iff_lt_mul heff]
            have : 0 < c * eff := Nat.mul_pos hc heff
            omega
        have h1 := procBatch_post hbs hne r st eff (fun it hit => by
            have := (hmem it hit).1
            omega) (fun h1 => by
            rw [List.length_take]; omega)
        have hpre : ∀ j, ∃ j', (L.take eff).take j = L.take j' := fun j =>
          ⟨min j eff, by rw [List.take_take]⟩
        obtain ⟨j, hj⟩ := h1.pref
        obtain ⟨j', hj'⟩ := hpre j
        rw [hj'] at hj
        generalize hres : Act.procBatch env r st objs eff (L.take eff) m = res at h1 hj
        obtain ⟨m', out⟩ := res
        cases out with
        | fail e => 
          exact ⟨h1.good, (fun hc => by cases hc), (fun hc => by cases hc), ⟨j', hj⟩, h1.fail⟩
        | stop =>
          have hs := h1.stop rfl
          dsimp only at hs ⊢
          rw [if_pos hs.1]
          exact ⟨h1.good, (fun hc => by cases hc), fun _ => Or.inl hs, ⟨j', hj⟩,
            (fun _ hc => by cases hc)⟩
        | cont =>
          obtain ⟨a1, a2, a3⟩ := h1.cont rfl
          dsimp only at a1 a2 a3 ⊢
          rw [if_neg (by rw [a2]; simp)]
          have hl2 : Consec (st + (c + 1) * eff) (L.drop eff) := by
            have := hl.drop (k := eff)
            rw [Nat.succ_mul, ← Nat.add_assoc]
            exact this
          have hsplit : L.take eff ++ L.drop eff = L := List.take_append_drop ..
          have h2 := ih (k + 1) (c + 1) (L.drop eff) (by
              rw [List.length_drop]
              omega) hl2 a1 a2 (by
              intro x hxm
              refine ⟨?_, fun h => by omega⟩
              rw [a3, List.map_append, List.mem_append] at hxm
              rcases hxm with hxm | hxm
              · have := (hx x hxm).1
                rw [Nat.succ_mul]; omega
              · obtain ⟨it, hit, rfl⟩ := List.mem_map.1 hxm
                exact (hmem it hit).2) (fun it hit => hV it (List.mem_of_mem_drop hit))
          refine ⟨h2.good, h2.nostop, fun hc => ?_, ?_, h2.fail⟩
          · rcases h2.cont hc with h' | ⟨b1, b2, h' | h'⟩
            · exact Or.inl h'
            · obtain ⟨j, ⟨hl, hb⟩, hj⟩ := h'
              refine Or.inr ⟨b1, b2, Or.inl ⟨j + 1, ⟨?_, fun i hi => ?_⟩, ?_⟩⟩
              · rw [show k + (j + 1) = k + 1 + j by omega]; exact hl
              · rcases Nat.eq_zero_or_pos i with rfl | hp
                · simpa using hnt
                · rw [show k + i = k + 1 + (i - 1) by omega]
                  exact hb _ (by omega)
              · rw [hj, a3, List.append_assoc, Nat.succ_mul, Nat.add_comm, List.take_add]
            · refine Or.inr ⟨b1, b2, Or.inr ⟨by rw [h'.1, a3, List.append_assoc, hsplit],
                fun i hi => ?_⟩⟩
              rcases Nat.eq_zero_or_pos i with rfl | hp
              · simpa using hnt
              · rw [show k + i = k + 1 + (i - 1) by omega]
                refine h'.2 _ ?_
                obtain ⟨i, rfl⟩ : ∃ i', i = i' + 1 := ⟨i - 1, by omega⟩
                rw [Nat.succ_mul] at hi
                rw [List.length_drop, Nat.add_sub_cancel]
                omega
          · obtain ⟨j', hj'⟩ := h2.pref
            refine ⟨eff + j', ?_⟩
            rw [hj', a3, List.append_assoc, List.take_add]

theorem stage2Main_post' {st : Nat} {m : M n} (objs : Option (List F64))
    (h : AllInv env o w0 V (batchNo st (o.effBatch env.threads st)) m [] [] [] [])
    (hne : o.solset ≠ some []) (ht : m.opt.targetReached = false) (hx : examined m.trace = [])
    (r : Bool) (ref : List (Pt n))
    (hV : ∀ it ∈ Act.items o.params.iterations st ref, ∀ v,
      Act.meritValue o objs it.1 it.2 = .ok v → V it.1 it.2 v) :
    APost env o w0 V (batchNo st (o.effBatch env.threads st)) (o.effBatch env.threads st) 0 m
      (Act.items o.params.iterations st ref) (Act.stage2Main env r st ref objs m) := by
  unfold Act.stage2Main
  have hcfg := (h.hist hne).cfg
  have he : m.opt.effBatch env.threads st = o.effBatch env.threads st := by
    unfold Opt.effBatch; rw [hcfg.par, hcfg.batch, hcfg.params]
  rw [he, hcfg.params]
  split
  · exact ⟨h.good, (fun hc => by cases hc), (fun hc => by cases hc), ⟨0, by simp⟩, fun _ _ => Or.inl ht⟩
  · rename_i h0
    have hl := loop_post' objs hne r st (o.effBatch env.threads st) (by omega)
      (Act.items o.params.iterations st ref).length 0 0 (Act.items o.params.iterations st ref)
      (Nat.le_refl _) (by rw [Nat.zero_mul]; exact items_consec _ _ _) h ht (by rw [hx]; simp) hV
    have hch : chunks (o.effBatch env.threads st) (Act.items o.params.iterations st ref) =
      chunksF (o.effBatch env.threads st) (Act.items o.params.iterations st ref).length
        (Act.items o.params.iterations st ref) := rfl
    rw [hch, Act.seq_def]
    split
    · rename_i hc
      have hqa := (QuietAct.obsEnd2 env).seq (QuietAct.saveFinal env)
      have hst : Steps env (Act.obsEnd2 env ;; Act.saveFinal env) :=
        Steps.seq Steps.obs (Steps.saveFinal env)
      generalize (Act.loop env r st objs (o.effBatch env.threads st) 0
        (chunksF (o.effBatch env.threads st) (Act.items o.params.iterations st ref).length
          (Act.items o.params.iterations st ref)) m) = res at hl hc
      have hq := hqa.quiet res.1
      have hlc := hl.cont hc
      refine ⟨?_, hqa.nostop _, fun _ => ?_, ?_, fun e he => ?_⟩
      · rcases hlc with ⟨_, pv, ps, fs, rj, h'⟩ | ⟨h', _⟩
        · exact (h'.quiet hq (hst _)).good
        · exact (h'.quiet hq (hst _)).good
      · rw [hq.target, hq.examined]
        rcases hlc with ⟨h1, pv, ps, fs, rj, h'⟩ | ⟨h', h2⟩
        · exact Or.inl ⟨h1, pv, ps, fs, rj, h'.quiet hq (hst _)⟩
        · exact Or.inr ⟨h'.quiet hq (hst _), h2⟩
      · rw [hq.examined]; exact hl.pref
      · rw [Act.seq_def, show (Act.obsEnd2 (n := n) env _).2 = .cont from rfl, if_pos rfl] at he
        exact Or.inr (Or.inl (saveFinal_fail env _ e he))
    · exact hl

theorem APost.pre {eff k : Nat} {m m1 : M n} {its : List (Nat × Pt n)} {r : M n × Out} (q : Quiet m m1)
    (h : APost env o w0 V bn eff k m1 its r) : APost env o w0 V bn eff k m its r := by
  refine ⟨h.good, h.nostop, fun hc => ?_, ?_, h.fail⟩
  · rw [← q.examined]; exact h.cont hc
  · rw [← q.examined]; exact h.pref

theorem AllInv.start (env : Env n) (o : Opt n) (w0 : Nat) (V : Nat → Pt n → F64 → Prop) (bn : Nat → Nat) :
    AllInv env o w0 V bn ⟨o, w0, 0, []⟩ [] [] [] [] := by
  refine ⟨⟨w0, 0, ReflTransGen.refl⟩, ?_, rfl, ⟨[], rfl, rfl, by simp⟩, List.Pairwise.nil,
    (fun x hx => by cases hx), rfl, rfl, fun h => h⟩
  intro pre e post h
  simp at h

/-- A resumed run whose solutions do not reach the target yet. -/
theorem resumed_post' (env : Env n) (hne : o.solset ≠ some []) (ht : o.targetReached = false) :
    APost env o o.unchanged (fun _ p v => o.problem.objective p = .ok v)
      (batchNo o.curIter (o.effBatch env.threads o.curIter)) (o.effBatch env.threads o.curIter) 0
      ⟨o, 0, 0, []⟩ (Act.items o.params.iterations o.curIter (o.curRef.getD []))
      (Act.body env true ⟨o, 0, 0, []⟩) := by
  unfold Act.body
  rw [if_pos rfl]
  unfold Act.stage2
  rw [Act.seq_def, show (Act.obsStart2 (n := n) env _).2 = .cont from rfl, if_pos rfl]
  have h0 := AllInv.start env o o.unchanged (fun _ p v => o.problem.objective p = .ok v)
    (batchNo o.curIter (o.effBatch env.threads o.curIter))
  have hq := (QuietAct.obsStart2 env).quiet (⟨o, o.unchanged, 0, []⟩ : M n)
  have h1 := h0.quiet hq (Steps.obs (env := env) _)
  simp only [if_true]
  have := stage2Main_post' none h1 hne (hq.target.trans ht) hq.examined true (o.curRef.getD [])
    (by
      intro it _ v hv
      unfold Act.meritValue at hv
      dsimp only at hv
      split at hv
      · rename_i w hw
        cases hv
        exact hw
      · cases hv)
  have h2 := APost.pre (m := ⟨o, o.unchanged, 0, []⟩) hq this
  exact ⟨h2.good, h2.nostop, h2.cont, h2.pref, h2.fail⟩

/-- Result of the body of a fresh run, for every batch size. -/
structure AllFresh (env : Env n) (o : Opt n) (r : M n × Out) : Prop where
  good : MeetRun env o 0 (FreshValue env o) (batchNo 0 (o.effBatch env.threads 0)) r.1
  inv : (∀ e, r.2 ≠ .fail e) → ∃ pv ps fs rj, AllInv env o 0 (FreshValue env o)
    (batchNo 0 (o.effBatch env.threads 0)) r.1 pv ps fs rj ∧
    (r.1.opt.targetReached = false → pv = [] ∧ ps = [] ∧ fs = [] ∧ rj = [])
  shape : (examined r.1.trace = [] ∧ r.2 ≠ .cont ∧
      (r.2 = .stop → r.1.opt.targetReached = true)) ∨
    ∃ sc sd, Act.scatter env o = .ok sc ∧
      Opt.shuffleSeed env o.params.seed o.curIter = some sd ∧ r.2 ≠ .stop ∧
      (∃ k, examined r.1.trace =
        (Act.items o.params.iterations 0 (env.rt.shuffle sd (sc.ref.map Prod.fst))).take k) ∧
      (r.2 = .cont → r.1.opt.targetReached = true ∨
        (∃ j, FirstLate env o 0 j ∧ examined r.1.trace = (Act.items o.params.iterations 0
          (env.rt.shuffle sd (sc.ref.map Prod.fst))).take (j * o.effBatch env.threads 0)) ∨
        (examined r.1.trace =
          Act.items o.params.iterations 0 (env.rt.shuffle sd (sc.ref.map Prod.fst)) ∧
          ∀ i, i * o.effBatch env.threads 0 <
            (Act.items o.params.iterations 0 (env.rt.shuffle sd (sc.ref.map Prod.fst))).length →
            Act.timedOut env o (0 + i) = false))
  fail : o.targetReached = false → ∀ e, r.2 = .fail e →
    r.1.opt.targetReached = false ∨ (∃ c, e = .checkpoint c) ∨
    (e = .panic ∧ ZeroFrequency r.1.opt)

/-- Stage 1 has finished, with its local search done. -/
structure AllStage1 (env : Env n) (o : Opt n) (V : Nat → Pt n → F64 → Prop) (bn : Nat → Nat)
    (r : M n × Out) : Prop where
  good : MeetRun env o 0 V bn r.1
  inv : (∀ e, r.2 ≠ .fail e) → AllInv env o 0 V bn r.1 [] [] [] []
  uc : r.1.uc = 0
  ex : examined r.1.trace = []
  cont : r.2 = .cont → r.1.opt.targetReached = false
  stop : r.2 = .stop → r.1.opt.targetReached = true
  cur : r.2 = .cont → r.1.opt.curIter = o.curIter
  fail : o.targetReached = false → ∀ e, r.2 = .fail e →
    r.1.opt.targetReached = false ∨ (∃ c, e = .checkpoint c) ∨
    (e = .panic ∧ ZeroFrequency r.1.opt)

theorem stage1Tail_post' {m3 : M n} (h3 : AllInv env o 0 V bn m3 [] [] [] [])
    (huc3 : m3.uc = 0) (hxm3 : examined m3.trace = []) (hcm3 : m3.opt.curIter = o.curIter)
    (ref : List (Pt n)) : AllStage1 env o V bn
      (if m3.opt.targetReached = true then (Act.obsEnd1 env ;; fun m'' => (m'', .stop)) m3
        else (Act.storeRef ref ;; Act.obsEnd1 env) m3) := by
  have ke : KeepIter (Act.obsEnd1 env) := KeepIter.seq KeepIter.obs
    (KeepIter.seq (KeepIter.invoke env _) KeepIter.obs)
  split
  · rename_i htt
    have hq3 := (QuietAct.obsEnd1 env).quiet m3
    have h4 := h3.quiet hq3 (Steps.obsEnd1 env m3)
    rw [Act.seq_def]
    split
    · exact ⟨h4.good, fun _ => h4, hq3.uc.trans huc3, hq3.examined.trans hxm3, (fun hc => by cases hc),
        fun _ => hq3.target.trans htt, (fun hc => by cases hc), (fun _ _ hc => by cases hc)⟩
    · rename_i hnc
      exact absurd (obsEnd1_cont env m3) hnc
  · rename_i htt
    have hqs := (QuietAct.storeRef ref).seq (QuietAct.obsEnd1 env)
    have hq3 := hqs.quiet m3
    have h4 := h3.quiet hq3 (Steps.seq (Steps.storeRef env ref) (Steps.obsEnd1 env) m3)
    have kk : KeepIter (Act.storeRef ref ;; Act.obsEnd1 env) :=
      KeepIter.seq (fun _ => rfl) ke
    exact ⟨h4.good, fun _ => h4, hq3.uc.trans huc3, hq3.examined.trans hxm3,
      fun _ => hq3.target.trans (by simpa using htt),
      fun hc => absurd hc (hqs.nostop m3), fun _ => (kk m3).trans hcm3,
      fun _ _ _ => Or.inl (hq3.target.trans (by simpa using htt))⟩

theorem stage1Local_post' {m : M n} (h : AllInv env o 0 V bn m [] [] [] [])
    (huc : m.uc = 0) (hx : examined m.trace = []) (hpr : procs m.trace = [])
    (hc : m.opt.curIter = o.curIter) (hne : o.solset ≠ some [])
    (hset : m.opt.targetReached = o.targetReached) (p : Pt n)
    (ref : List (Pt n)) : AllStage1 env o V bn (Act.stage1Local env p ref m) := by
  unfold Act.stage1Local
  have hs : ∀ (t : F64) (r : Except LErr (Sol n)), (t, ([] : List F64)) =
      bookStep (m.opt.merit.threshold, []) (.search none p r : Event n) →
      r = (env.solve m.opt.lsType m.opt.lsConfig p).map Prod.fst →
      AllInv env o 0 V bn
      { m with opt := { m.opt with merit := m.opt.merit.update t }
               trace := m.trace ++ [.search none p r] } [] [] (okSol r) [] := by
    intro t r htr hr
    obtain ⟨u, sv, h0⟩ := h.reach
    obtain ⟨D, d1, d2, d3⟩ := h.wait
    have hpd : pendAfter 0 (m.trace ++ [.search none p r]) = pendAfter 0 m.trace := pendAfter_snoc _ _ _
    refine ⟨⟨u, sv, h0.trans ?_⟩, h.meet.snoc trivial, ?_, ⟨D, ?_, ?_, d3⟩, h.sorted, ?_, ?_, ?_, h.lim⟩
    · exact (reach_opt env m { m.opt with merit := m.opt.merit.update t } (by constructor <;> rfl) rfl
        rfl).trans (reach_log env _ (.search none p r) rfl (Or.inl hr))
    · show bookAfter _ (_ ++ [_]) = (t, [])
      rw [bookAfter_snoc, h.thr, htr]
    · show (pendAfter 0 (_ ++ [_])).2 = _
      rw [hpd]; exact d1
    · show m.uc = (pendAfter 0 (_ ++ [_])).1 + _
      rw [hpd]; exact d2
    · show ∀ x ∈ (pendAfter 0 (_ ++ [_])).2, x ∈ (examined (_ ++ [_])).map _
      rw [hpd, examined_append]
      intro x hx
      rw [List.map_append, List.mem_append]
      exact Or.inl (h.pend x hx)
    · show searched (_ ++ [_]) ++ _ = passed (_ ++ [_])
      rw [searched_append, passed_append, ← h.srch]; simp [searched, passed]
    · show foundSols (_ ++ [_]) = procs (_ ++ [_]) ++ _
      rw [foundSols_append, procs_append, h.fnd]
      cases r <;> simp [foundSols, procs, okSol]
  split
  · rename_i e he
    have := hs m.opt.merit.threshold (.error e) rfl (by rw [he]; rfl)
    refine ⟨this.good, (fun hc => absurd rfl (hc _)), huc, ?_, (fun hc => by cases hc),
      (fun hc => by cases hc), (fun hc => by cases hc), fun h _ _ => Or.inl (hset.trans h)⟩
    show examined (_ ++ [_]) = _
    rw [examined_append, hx]; rfl
  · rename_i s evals he
    have h1 := hs s.objective (.ok s) rfl (by rw [he]; rfl)
    rw [Act.seq_def, show (Act.setThreshold (n := n) _ _).2 = .cont from rfl, if_pos rfl]
    have e1 : (Act.setThreshold s.objective ({ m with
        trace := m.trace ++ [.search none p (.ok s)] } : M n)).1 =
      { m with opt := { m.opt with merit := m.opt.merit.update s.objective }
               trace := m.trace ++ [.search none p (.ok s)] } := rfl
    rw [e1]
    have hx1 : examined (m.trace ++ [.search none p (.ok s)]) = [] := by
      rw [examined_append, hx]; rfl
    generalize hm1 : ({ m with opt := { m.opt with merit := m.opt.merit.update s.objective }
                               trace := m.trace ++ [.search none p (.ok s)] } : M n) = m1 at h1
    have huc1 : m1.uc = 0 := by rw [← hm1]; exact huc
    have hc1 : m1.opt.curIter = o.curIter := by rw [← hm1]; exact hc
    have hxm1 : examined m1.trace = [] := by rw [← hm1]; exact hx1
    have hpm1 : procs m1.trace = [] := by
      rw [← hm1]
      show procs (_ ++ [_]) = _
      rw [procs_append, hpr]; rfl
    have hmem1 : Event.search none p (.ok s) ∈ m1.trace := by rw [← hm1]; simp
    generalize (if m.opt.tracks1 = true then evals else 0) = ev
    rw [Act.seq_def]
    have hqa := QuietAct.obsLocal1 env s ev
    have hsa := Steps.obsLocal1 env s ev
    have hka : KeepIter (Act.obsLocal1 env s ev) :=
      KeepIter.seq KeepIter.obs (KeepIter.invoke env _)
    have hq := hqa.quiet m1
    have h2 := h1.quiet hq (hsa m1)
    split
    · have hmem2 : Event.search none p (.ok s) ∈
          (Act.obsLocal1 env s ev m1).1.trace := by
        obtain ⟨t, ht, _⟩ := hq.tr
        rw [ht]; simp [hmem1]
      have hx2 := hq.examined.trans hxm1
      have hp2 := hq.procs.trans hpm1
      have huc2 := hq.uc.trans huc1
      have hc2 := (hka m1).trans hc1
      generalize (Act.obsLocal1 env s ev m1).1 = m2 at *
      have h3 : AllInv env o 0 V bn { m2 with
          opt := (m2.opt.process s).1
          trace := m2.trace ++ [.processed s (m2.opt.process s).2] } [] [] [] [] :=
        AllInv.process (s := s) h2 m2.opt.merit.threshold rfl ⟨none, p, hmem2⟩
        (Or.inl ⟨hx2, hp2⟩)
      unfold Act.process
      dsimp only
      have hx3 : examined (m2.trace ++ [.processed s (m2.opt.process s).2]) = [] := by
        rw [examined_append, hx2]; rfl
      split
      · rename_i hpan
        exact absurd hpan ((h3.hist hne).genuine s _ (by simp)).1
      · have hc3 : (m2.opt.process s).1.curIter = o.curIter := by rw [Opt.process_curIter, hc2]
        exact stage1Tail_post' h3 huc2 hx3 hc3 ref
    · rename_i hnc
      exact absurd (obsLocal1_cont env s ev m1) hnc

/-- A fresh run. -/
theorem fresh_post' (env : Env n) (hne : o.solset ≠ some []) :
    AllFresh env o (Act.body env false ⟨o, 0, 0, []⟩) := by
  unfold Act.body
  rw [if_neg (by simp)]
  unfold Act.stage1
  have h0 := AllInv.start env o 0 (FreshValue env o) (batchNo 0 (o.effBatch env.threads 0))
  split
  · exact ⟨h0.good, (fun hc => absurd rfl (hc _)), Or.inl ⟨rfl, (fun hc => by cases hc),
      (fun hc => by cases hc)⟩, fun h _ _ => Or.inl h⟩
  · rename_i r hr
    dsimp only
    have hqa : QuietAct (Act.log (n := n) (.scatter r.evals)) := QuietAct.log rfl
    have hsa : Steps env (Act.log (n := n) (.scatter r.evals)) := Steps.log rfl rfl
    have hka : KeepIter (Act.log (n := n) (.scatter r.evals)) := fun _ => rfl
    have hqb : QuietAct (if o.tracks1 = true then Act.obsScatter env r else Act.skip) := by
      split
      · exact QuietAct.obsScatter env r
      · exact QuietAct.skip
    have hsb : Steps env (if o.tracks1 = true then Act.obsScatter env r else Act.skip) := by
      split
      · exact Steps.obsScatter env r
      · exact Steps.skip env
    have hkb : KeepIter (if o.tracks1 = true then Act.obsScatter env r else Act.skip) := by
      split
      · exact KeepIter.seq KeepIter.obs (KeepIter.seq (KeepIter.invoke env _) (KeepIter.seq
          KeepIter.obs (KeepIter.seq (KeepIter.invoke env _) (KeepIter.seq KeepIter.obs
            (KeepIter.invoke env _)))))
      · exact KeepIter.skip
    have hqc := QuietAct.obsScatterDone env (r.ref.map Prod.fst) (r.ref.map Prod.snd)
    have hsc := Steps.obsScatterDone env (r.ref.map Prod.fst) (r.ref.map Prod.snd)
    have hkc : KeepIter (Act.obsScatterDone env (r.ref.map Prod.fst) (r.ref.map Prod.snd)) :=
      KeepIter.seq KeepIter.obs (KeepIter.seq (KeepIter.invoke env _) KeepIter.obs)
    -- quiet prefix
    have pre : ∀ (a b : Act n) (m : M n), QuietAct a → Steps env a → KeepIter a →
        AllInv env o 0 (FreshValue env o) (batchNo 0 (o.effBatch env.threads 0)) m [] [] [] [] →
        m.uc = 0 → examined m.trace = [] ∧ procs m.trace = [] →
        m.opt.curIter = o.curIter → m.opt.targetReached = o.targetReached →
        (∀ m', AllInv env o 0 (FreshValue env o) (batchNo 0 (o.effBatch env.threads 0)) m' [] [] [] [] →
          m'.uc = 0 →
          examined m'.trace = [] ∧ procs m'.trace = [] → m'.opt.curIter = o.curIter →
          m'.opt.targetReached = o.targetReached → AllFresh env o (b m')) →
        AllFresh env o ((a ;; b) m) := by
      intro a b m ha hs hk h1 h2 h3 h4 h5 hb
      rw [Act.seq_def]
      have q := ha.quiet m
      have h1' := h1.quiet q (hs m)
      split
      · exact hb _ h1' (q.uc.trans h2) ⟨q.examined.trans h3.1, q.procs.trans h3.2⟩
          ((hk m).trans h4) (q.target.trans h5)
      · rename_i hnc
        exact ⟨h1'.good, fun _ => ⟨_, _, _, _, h1', fun _ => ⟨rfl, rfl, rfl, rfl⟩⟩,
          Or.inl ⟨q.examined.trans h3.1, hnc, fun hc => absurd hc (ha.nostop m)⟩,
          fun h _ _ => Or.inl (q.target.trans (h5.trans h))⟩
    refine pre _ _ _ hqa hsa hka h0 rfl ⟨rfl, rfl⟩ rfl rfl fun m1 a1 a2 a3 a4 a5 => ?_
    refine pre _ _ _ hqb hsb hkb a1 a2 a3 a4 a5 fun m2 b1 b2 b3 b4 b5 => ?_
    refine pre _ _ _ hqc hsc hkc b1 b2 b3 b4 b5 fun m3 c1 c2 c3 c4 c5 => ?_
    have hl := stage1Local_post' (env := env) c1 c2 c3.1 c3.2 c4 hne c5 r.best (r.ref.map Prod.fst)
    rw [Act.seq_def]
    split
    · rename_i hcont
      have ht := hl.cont hcont
      have hcur := hl.cur hcont
      have hinv := hl.inv (fun e he => by rw [hcont] at he; cases he)
      have huc := hl.uc
      have hex := hl.ex
      generalize (Act.stage1Local env r.best (r.ref.map Prod.fst) m3).1 = m4 at *
      have hid : ({ m4 with uc := 0 } : M n) = m4 := by rw [← huc]
      rw [Act.seq_def]
      dsimp only
      rw [if_pos rfl, hid]
      unfold Act.stage2
      rw [Act.seq_def, show (Act.obsStart2 (n := n) env _).2 = .cont from rfl, if_pos rfl]
      have hq := (QuietAct.obsStart2 env).quiet m4
      have h5 := hinv.quiet hq (Steps.obs (env := env) _)
      have hcur5 : (Act.obsStart2 env m4).1.opt.curIter = o.curIter := hcur
      have hpar5 : (Act.obsStart2 env m4).1.opt.params = o.params := (h5.hist hne).cfg.params
      have ht5 := hq.target.trans ht
      have hex5 := hq.examined.trans hex
      generalize (Act.obsStart2 env m4).1 = m5 at *
      simp only [Bool.false_eq_true, if_false]
      rw [hcur5, hpar5]
      split
      · exact ⟨h5.good, (fun hc => absurd rfl (hc _)), Or.inl ⟨hex5, (fun hc => by cases hc),
          (fun hc => by cases hc)⟩, fun _ _ _ => Or.inl ht5⟩
      · rename_i sd hsd
        rw [Act.seq_def, show (Act.setSeed (n := n) sd _).2 = .cont from rfl, if_pos rfl]
        have hq6 := (QuietAct.setSeed (n := n) sd).quiet m5
        have h6 := h5.quiet hq6 (Steps.setSeed env sd m5)
        have hx6 := hq6.examined.trans hex5
        have hp := stage2Main_post' (some (r.ref.map Prod.snd)) h6 hne (hq6.target.trans ht5) hx6 false
          (env.rt.shuffle sd (r.ref.map Prod.fst)) (by
            intro it _ v hv
            unfold Act.meritValue at hv
            dsimp only at hv
            rw [List.length_map] at hv
            split at hv
            · rename_i w hw
              cases hv
              exact ⟨r, hr, hw⟩
            · cases hv)
        refine ⟨hp.good, fun hnf => ?_, Or.inr ⟨r, sd, hr, hsd, hp.nostop, ?_, ?_⟩, fun _ => hp.fail⟩
        · have hc : (Act.stage2Main env false 0 (env.rt.shuffle sd (r.ref.map Prod.fst))
              (some (r.ref.map Prod.snd)) (Act.setSeed sd m5).1).2 = .cont := by
            cases ho : (Act.stage2Main env false 0 (env.rt.shuffle sd (r.ref.map Prod.fst))
              (some (r.ref.map Prod.snd)) (Act.setSeed sd m5).1).2 with
            | cont => rfl
            | stop => exact absurd ho hp.nostop
            | fail e => exact absurd ho (hnf e)
          rcases hp.cont hc with ⟨t, pv, ps, fs, rj, hi⟩ | ⟨hi, _⟩
          · exact ⟨pv, ps, fs, rj, hi, fun h => by rw [t] at h; cases h⟩
          · exact ⟨_, _, _, _, hi, fun _ => ⟨rfl, rfl, rfl, rfl⟩⟩
        · obtain ⟨k, hk⟩ := hp.pref
          exact ⟨k, by rw [hk, hx6, List.nil_append]⟩
        · intro hc
          have := hp.cont hc
          rw [hx6, List.nil_append] at this
          rcases this with ⟨t, _⟩ | ⟨_, _, h⟩
          · exact Or.inl t
          · exact Or.inr h
    · rename_i hnc
      exact ⟨hl.good, fun hnf => ⟨_, _, _, _, hl.inv hnf, fun _ => ⟨rfl, rfl, rfl, rfl⟩⟩,
        Or.inl ⟨hl.ex, hnc, hl.stop⟩, hl.fail⟩

end GS
