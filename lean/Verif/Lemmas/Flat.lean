/- Sequential processing does not see how the items are cut into batches. -/
import Verif.Lemmas.Sim

namespace GS
variable {n : Nat}

/-- Started without the target being reached, the action stops exactly when it reaches the target. -/
def Tl (a : Act n) : Prop :=
  ∀ m, m.opt.targetReached = false → ((a m).2 = .stop ↔ (a m).1.opt.targetReached = true)

theorem Tl.seq {a b : Act n} (ha : Tl a) (hb : Tl b) : Tl (a ;; b) := by
  intro m hm
  rw [Act.seq_def]
  split
  · rename_i hc
    refine hb _ ?_
    cases h : (a m).1.opt.targetReached with
    | false => rfl
    | true => have := (ha m hm).2 h; rw [hc] at this; cases this
  · exact ha m hm

theorem Tl.of {a : Act n} (h : ∀ m, (a m).1.opt.targetReached = m.opt.targetReached)
    (hs : ∀ m, (a m).2 ≠ .stop) : Tl a := by
  intro m hm
  rw [h, hm]
  exact ⟨fun hc => absurd hc (hs m), fun hc => by cases hc⟩

theorem QuietAct.tl {a : Act n} (h : QuietAct a) : Tl a := Tl.of (fun m => (h.quiet m).target) h.nostop

theorem Tl.log (e : Event n) : Tl (Act.log e) := Tl.of (fun _ => rfl) (fun _ h => by cases h)

theorem Tl.reject (i : Nat) : Tl (Act.reject (n := n) i) := by
  refine Tl.of (fun m => ?_) (fun m => ?_) <;> unfold Act.reject <;> split <;> first | rfl | (intro h; cases h)

theorem Tl.stopIfTarget : Tl (Act.stopIfTarget (n := n)) := by
  intro m _
  unfold Act.stopIfTarget
  dsimp only
  cases m.opt.targetReached <;> simp

theorem Opt.process_panic {x : Opt n} {s : Sol n} (h : (x.process s).2 = .panic) :
    (x.process s).1.targetReached = x.targetReached := by
  unfold Opt.process at h ⊢
  dsimp only at h ⊢
  split
  · rfl
  · rename_i h1
    rw [if_neg h1] at h
    exact absurd h h1

theorem Tl.localSeq (env : Env n) (i : Nat) (p : Pt n) (v : F64) : Tl (Act.localSeq env i p v) := by
  intro m hm
  unfold Act.localSeq
  rw [Act.seq_def]
  rw [show (Act.setThreshold v m).2 = .cont from rfl, if_pos rfl]
  have hm1 : (Act.setThreshold v m).1.opt.targetReached = false := hm
  generalize (Act.setThreshold v m).1 = m1 at hm1
  unfold Act.search
  split
  · refine ⟨(fun hc => by cases hc), fun hc => ?_⟩
    have : m1.opt.targetReached = true := hc
    rw [hm1] at this; cases this
  · rename_i s evals _
    unfold Act.process
    dsimp only
    split
    · rename_i hp
      refine ⟨(fun hc => by cases hc), fun hc => ?_⟩
      have : (m1.opt.process s).1.targetReached = true := hc
      rw [Opt.process_panic hp, hm1] at this; cases this
    · rw [Act.seq_def, show (Act.obsLocal (n := n) _ _ _).2 = .cont from rfl, if_pos rfl]
      unfold Act.stopIfTarget
      generalize (Act.obsLocal (n := n) _ _ _).1 = m2
      dsimp only
      cases m2.opt.targetReached <;> simp

theorem Tl.stepSeq (env : Env n) (r : Bool) (st : Nat) (objs : Option (List F64)) (it : Nat × Pt n) :
    Tl (Act.stepSeq env r st objs it) := by
  unfold Act.stepSeq
  split
  · exact QuietAct.skip.tl
  · refine (QuietAct.beginIter env _).tl.seq ((QuietAct.obsIter _).tl.seq ?_)
    intro m hm
    unfold Act.getMerit
    dsimp only
    have h1 : (if objs.isNone = true then { m with trace := m.trace ++ [.evaluate it.1 it.2] }
        else m : M n).opt.targetReached = false := by
      split <;> exact hm
    generalize (if objs.isNone = true then { m with trace := m.trace ++ [.evaluate it.1 it.2] }
        else m : M n) = m1 at h1
    split
    · exact ⟨(fun hc => by cases hc), fun hc => by rw [h1] at hc; cases hc⟩
    · rename_i v _
      refine Tl.seq ?_ ?_ m1 h1
      · split
        · exact (QuietAct.obsEvals 1).tl
        · exact QuietAct.skip.tl
      · intro m2 hm2
        refine Tl.seq (Tl.log _) (Tl.seq ?_ (Tl.seq (QuietAct.callback env _).tl
          (QuietAct.save env).tl)) m2 hm2
        split
        · exact Tl.localSeq env _ _ _
        · exact Tl.reject _

theorem Tl.all (l : List (Act n)) (h : ∀ a ∈ l, Tl a) : Tl (Act.all l) := by
  induction l with
  | nil => exact QuietAct.skip.tl
  | cons a l ih => exact (h a (by simp)).seq (ih fun a ha => h a (by simp [ha]))

theorem Tl.batchSeq (env : Env n) (r : Bool) (st : Nat) (objs : Option (List F64))
    (its : List (Nat × Pt n)) : Tl (Act.batchSeq env r st objs its) := by
  refine Tl.all _ ?_
  intro a ha
  obtain ⟨it, _, rfl⟩ := List.mem_map.1 ha
  exact Tl.stepSeq env r st objs it

theorem all_append (l1 l2 : List (Act n)) (m : M n) :
    Act.all (l1 ++ l2) m = (Act.all l1 ;; Act.all l2) m := by
  induction l1 generalizing m with
  | nil =>
    rw [Act.seq_def]; rfl
  | cons a l1 ih =>
    show (a ;; Act.all (l1 ++ l2)) m = ((a ;; Act.all l1) ;; Act.all l2) m
    rw [Act.seq_def, Act.seq_def (a ;; Act.all l1), Act.seq_def a (Act.all l1)]
    by_cases h : (a m).2 = .cont
    · rw [if_pos h, if_pos h, ih, Act.seq_def]
    · rw [if_neg h, if_neg h, if_neg h]

/-- Early returns of a batch end the loop normally. -/
def settle (r : M n × Out) : M n × Out :=
  match r with
  | (m, .fail e) => (m, .fail e)
  | (m, _) => (m, .cont)

/-- Without time limit the sequential loop is one sequential batch of all its items. -/
theorem loop_flat (env : Env n) (r : Bool) (st : Nat) (objs : Option (List F64)) (eff k : Nat)
    (he : ¬ 1 < eff) (bs : List (List (Nat × Pt n))) (m : M n) (ht : m.opt.targetReached = false)
    (hmax : m.opt.maxTime = none) :
    Act.loop env r st objs eff k bs m = settle (Act.batchSeq env r st objs bs.flatten m) := by
  induction bs generalizing k m with
  | nil => rfl
  | cons b bs ih =>
    unfold Act.loop
    have h1 : Act.timedOut env m.opt k = false := by unfold Act.timedOut; rw [hmax]
    rw [h1, if_neg (by simp)]
    unfold Act.procBatch
    rw [if_neg he]
    have h2 : Act.batchSeq env r st objs (b :: bs).flatten m =
        (Act.batchSeq env r st objs b ;; Act.batchSeq env r st objs bs.flatten) m := by
      unfold Act.batchSeq
      rw [List.flatten_cons, List.map_append, all_append]
    rw [h2, Act.seq_def]
    have h3 := Tl.batchSeq env r st objs b m ht
    have h4 := (Reach.cfg (Steps.batchSeq env r st objs b m)).maxTime
    generalize Act.batchSeq env r st objs b m = res at h3 h4
    obtain ⟨m', out⟩ := res
    dsimp only at h3 h4 ⊢
    cases out with
    | fail e => rfl
    | stop =>
      dsimp only
      rw [if_pos (h3.1 rfl)]
      rfl
    | cont =>
      dsimp only
      have h5 : m'.opt.targetReached = false := by
        cases h : m'.opt.targetReached with
        | false => rfl
        | true => have := h3.2 h; cases this
      rw [h5]
      simp only [Bool.false_eq_true, if_false, if_true]
      exact ih (k + 1) m' h5 (h4.trans hmax)

end GS
