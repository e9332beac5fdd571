/- C49, C57: the schedule of checkpoints and callbacks in parallel runs. -/
import Verif.Lemmas.MarksPar
import Verif.Props.Saves
import Verif.Props.SaveOrder
import Verif.Props.EveryMode

namespace GS.Props
open GS F64 GS.Witness
variable {n : Nat}

/-- The run starts stage 2 at iteration `st` with batches of `eff` candidates. -/
inductive StartsAt (env : Env n) (o : Opt n) (loaded : Option (Except CkErr (Ckpt n))) : Nat → Nat → Prop
  where
  | fresh (hb : Built o) (hf : Fresh o loaded) : StartsAt env o loaded 0 (o.effBatch env.threads 0)
  | resumed {c : Ckpt n} (hr : Resumes o loaded c) :
      StartsAt env o loaded c.currentIteration ((o.restore c).effBatch env.threads c.currentIteration)

/-- Iteration numbers of the stage-2 callbacks, in order. -/
def calledNos (tr : List (Event n)) : List Nat :=
  (marks tr).filterMap fun | .called i => some i | _ => none

/-- Iteration numbers of the checkpoints written, in order. -/
def writtenNos (tr : List (Event n)) : List Nat :=
  (marks tr).filterMap fun | .written i => some i | _ => none

/-- How the examined candidates with the filter decisions `v` fall into batches of `eff`: consecutive
numbers from `st`, no empty batch, and only the last one may be shorter. -/
structure InBatches (eff st : Nat) (v : List (Nat × Bool)) (bs : List (List (Nat × Bool))) : Prop where
  flat : v = bs.flatten
  numbers : v.map Prod.fst = List.range' st v.length
  size : ∀ b ∈ bs, 0 < b.length ∧ b.length ≤ eff
  full : ∀ b ∈ bs.dropLast, b.length = eff

/-- Callbacks due for a parallel batch with frequency `f`: multiples of `f` among the rejected candidates,
then among the passing ones; a lone passing candidate always has one. -/
def batchCalls (f : Nat) (b : List (Nat × Bool)) : List Nat :=
  (rejectedNos b).filter (· % f = 0) ++
    if (passedNos b).length = 1 then passedNos b else (passedNos b).filter (· % f = 0)

/-- Checkpoints due for a parallel batch with save frequency `f`: multiples of `f` among the rejected
candidates, then among the passing ones. -/
def batchWrites (f : Nat) (b : List (Nat × Bool)) : List Nat := (workOrder b).filter (· % f = 0)

/-! Counting in marks. -/

theorem chunksF_map {α β : Type} (g : α → β) (k f : Nat) (l : List α) :
    (chunksF k f l).map (fun b => b.map g) = chunksF k f (l.map g) := by
  induction f generalizing l with
  | zero => rfl
  | succ f ih =>
    cases l with
    | nil => rfl
    | cons a l =>
      rw [chunksF, List.map_cons, ih, List.map_cons, chunksF, ← List.map_cons, List.map_take, List.map_drop]

theorem chunksF_cut {α : Type} (k f : Nat) (hk : 0 < k) (l : List α) :
    (∀ b ∈ chunksF k f l, 0 < b.length ∧ b.length ≤ k) ∧
      (l.length ≤ f → ∀ b ∈ (chunksF k f l).dropLast, b.length = k) := by
  induction f generalizing l with
  | zero => simp [chunksF]
  | succ f ih =>
    cases l with
    | nil => simp [chunksF]
    | cons a l =>
      obtain ⟨i1, i2⟩ := ih ((a :: l).drop k)
      rw [chunksF]
      refine ⟨fun b hb => ?_, fun hl b hb => ?_⟩
      · rcases List.mem_cons.1 hb with rfl | hb
        · rw [List.length_take]
          simp only [List.length_cons]
          omega
        · exact i1 b hb
      · cases hc : chunksF k f ((a :: l).drop k) with
        | nil => rw [hc] at hb; simp at hb
        | cons x xs =>
          rw [hc, List.dropLast_cons_cons] at hb
          rcases List.mem_cons.1 hb with rfl | hb
          · have hne : (a :: l).drop k ≠ [] := by
              intro h
              rw [h] at hc
              cases f <;> simp [chunksF] at hc
            have : k < (a :: l).length := by
              by_contra hh
              exact hne (List.drop_eq_nil_of_le (by omega))
            rw [List.length_take]; omega
          · refine i2 ?_ b (by rw [hc]; exact hb)
            simp only [List.length_drop, List.length_cons] at hl ⊢
            omega

theorem batches_of {eff st iters : Nat} {ref : List (Pt n)} {bs : List (List (Nat × Bool))} (he : 0 < eff)
    (h : nums bs <+: nums (chunks eff (Act.items iters st ref))) : InBatches eff st bs.flatten bs := by
  obtain ⟨w, hw⟩ := h
  have hcut := chunksF_cut eff (Act.items iters st ref).length he (Act.items iters st ref)
  have hlen : ∀ b ∈ bs, ∃ c ∈ chunks eff (Act.items iters st ref), c.length = b.length := by
    intro b hb
    have : b.map Prod.fst ∈ nums (chunks eff (Act.items iters st ref)) := by
      rw [← hw]
      exact List.mem_append_left _ (List.mem_map_of_mem hb)
    obtain ⟨c, hc, hcb⟩ := List.mem_map.1 this
    exact ⟨c, hc, by simpa using congrArg List.length hcb⟩
  refine ⟨rfl, ?_, fun b hb => ?_, fun b hb => ?_⟩
  · have hfl : (nums bs).flatten ++ w.flatten = (Act.items iters st ref).map Prod.fst := by
      rw [← List.flatten_append, hw]
      unfold nums
      rw [← List.map_flatten, chunks_flatten eff he]
    have h1 := items_iters iters st ref
    rw [← hfl, List.range_eq_range', List.drop_range'] at h1
    have e : (nums bs).flatten = bs.flatten.map Prod.fst := by
      unfold nums
      rw [← List.map_flatten]
    rw [e] at h1
    have h3 := congrArg List.length h1
    simp only [List.length_append, List.length_map, List.length_range'] at h3
    rw [Nat.zero_add, Nat.mul_one, ← h3, show List.range' st (bs.flatten.length + w.flatten.length) =
        List.range' st bs.flatten.length ++ List.range' (st + bs.flatten.length) w.flatten.length from by
          rw [← List.range'_append, Nat.one_mul]] at h1
    exact (List.append_inj h1 (by rw [List.length_map, List.length_range'])).1
  · obtain ⟨c, hc, hcb⟩ := hlen b hb
    rw [← hcb]
    exact hcut.1 c hc
  · have hm : b.map Prod.fst ∈ (nums (chunks eff (Act.items iters st ref))).dropLast := by
      rw [← hw]
      have : b.map Prod.fst ∈ (nums bs).dropLast := by
        unfold nums
        rw [← List.map_dropLast]
        exact List.mem_map_of_mem hb
      cases w with
      | nil => rw [List.append_nil]; exact this
      | cons x xs =>
        rw [List.dropLast_append_cons]
        exact List.mem_append_left _ (List.dropLast_subset _ this)
    unfold nums at hm
    rw [← List.map_dropLast] at hm
    obtain ⟨c, hc, hcb⟩ := List.mem_map.1 hm
    have := hcut.2 (Nat.le_refl _) c hc
    rw [← this]
    simpa using (congrArg List.length hcb).symm

theorem flatMap_due (f : Nat) (l : List Nat) :
    l.flatMap (fun i => if i % f = 0 then [i] else []) = l.filter (· % f = 0) := by
  induction l with
  | nil => rfl
  | cons i l ih =>
    rw [List.flatMap_cons, ih, List.filter_cons]
    by_cases h : i % f = 0
    · simp [h]
    · simp [h]

theorem filterMap_flatMap {α β γ : Type} (g : β → Option γ) (h : α → List β) (l : List α) :
    (l.flatMap h).filterMap g = l.flatMap fun a => (h a).filterMap g := by
  induction l with
  | nil => rfl
  | cons a l ih => rw [List.flatMap_cons, List.filterMap_append, ih, List.flatMap_cons]

/-- Number of a callback mark. -/
abbrev callNo : Mark → Option Nat := fun | .called i => some i | _ => none
/-- Number of a checkpoint mark. -/
abbrev writeNo : Mark → Option Nat := fun | .written i => some i | _ => none

theorem callNo_calls (id f i : Nat) : (callMarks (some (some id, f)) i).filterMap callNo =
    if i % f = 0 then [i] else [] := by
  unfold callMarks
  dsimp only
  split <;> rfl
theorem callNo_saves (ck : Option CkptConfig) (i : Nat) : (saveMarks ck i).filterMap callNo = [] := by
  unfold saveMarks
  split
  · split <;> rfl
  · rfl
theorem callNo_final (ck : Option CkptConfig) (i : Nat) : (finalMarks ck i).filterMap callNo = [] := by
  unfold finalMarks
  split <;> rfl
theorem writeNo_calls (key : Option (Option Nat × Nat)) (i : Nat) :
    (callMarks key i).filterMap writeNo = [] := by
  unfold callMarks
  split
  · split <;> rfl
  · rfl
theorem writeNo_lone (key : Option (Option Nat × Nat)) (i : Nat) :
    (loneMarks key i).filterMap writeNo = [] := by
  unfold loneMarks
  split <;> rfl
theorem writeNo_pass (key : Option (Option Nat × Nat)) (b : List (Nat × Bool)) (i : Nat) :
    (passCall key b i).filterMap writeNo = [] := by
  unfold passCall
  split
  · exact writeNo_lone key i
  · exact writeNo_calls key i
theorem writeNo_saves (cfg : CkptConfig) (i : Nat) : (saveMarks (some cfg) i).filterMap writeNo =
    if i % cfg.saveFrequency = 0 then [i] else [] := by
  unfold saveMarks
  dsimp only
  split <;> rfl

theorem callNo_pass (id f : Nat) (b : List (Nat × Bool)) (i : Nat) :
    (passCall (some (some id, f)) b i).filterMap callNo =
      if (passedNos b).length = 1 then [i] else if i % f = 0 then [i] else [] := by
  unfold passCall
  split
  · rfl
  · exact callNo_calls id f i

theorem iters_filterMap {g : Mark → Option Nat} (hg : ∀ i, g (.iteration i) = none) (b : List (Nat × Bool)) :
    (b.map fun x => Mark.iteration x.1).filterMap g = [] := by
  rw [List.filterMap_eq_nil_iff]
  intro m hm
  obtain ⟨x, _, rfl⟩ := List.mem_map.1 hm
  exact hg _

theorem callNo_head (id f : Nat) (ck : Option CkptConfig) (b : List (Nat × Bool)) (d : List Nat) :
    (batchHead (some (some id, f)) ck b d).filterMap callNo = (rejectedNos b).filter (· % f = 0) ++
      if (passedNos b).length = 1 then d else d.filter (· % f = 0) := by
  unfold batchHead
  rw [List.filterMap_append, iters_filterMap (fun _ => rfl), List.nil_append, List.filterMap_append,
    filterMap_flatMap, filterMap_flatMap]
  congr 1
  · rw [← flatMap_due]
    refine congrArg (fun h => List.flatMap h (rejectedNos b)) (funext fun i => ?_)
    rw [List.filterMap_append, callNo_calls, callNo_saves, List.append_nil]
  · have : (fun i => (passCall (some (some id, f)) b i ++ saveMarks ck i).filterMap callNo) =
        fun i => if (passedNos b).length = 1 then [i] else if i % f = 0 then [i] else [] := by
      funext i
      rw [List.filterMap_append, callNo_pass, callNo_saves, List.append_nil]
    rw [this]
    split
    · simp
    · exact flatMap_due f d

theorem callNo_batch (id f : Nat) (ck : Option CkptConfig) (b : List (Nat × Bool)) :
    (batchMarks (some (some id, f)) ck b).filterMap callNo = batchCalls f b := callNo_head id f ck b _

theorem writeNo_head (key : Option (Option Nat × Nat)) (cfg : CkptConfig) (b : List (Nat × Bool))
    (d : List Nat) : (batchHead key (some cfg) b d).filterMap writeNo =
      (rejectedNos b ++ d).filter (· % cfg.saveFrequency = 0) := by
  unfold batchHead
  rw [List.filterMap_append, iters_filterMap (fun _ => rfl), List.nil_append, List.filterMap_append,
    filterMap_flatMap, filterMap_flatMap, List.filter_append, ← flatMap_due, ← flatMap_due]
  congr 1
  · refine congrArg (fun h => List.flatMap h (rejectedNos b)) (funext fun i => ?_)
    rw [List.filterMap_append, writeNo_calls, writeNo_saves, List.nil_append]
  · refine congrArg (fun h => List.flatMap h d) (funext fun i => ?_)
    rw [List.filterMap_append, writeNo_pass, writeNo_saves, List.nil_append]

theorem writeNo_batch (key : Option (Option Nat × Nat)) (cfg : CkptConfig) (b : List (Nat × Bool)) :
    (batchMarks key (some cfg) b).filterMap writeNo = batchWrites cfg.saveFrequency b :=
  writeNo_head key cfg b _

/-- Marks of a run with parallel batches. -/
structure ShapeP (key : Option (Option Nat × Nat)) (ck : Option CkptConfig) (eff st : Nat) (r : M n × Out) :
    Prop where
  stop : r.2 = .stop → marks r.1.trace = [] ∧ verdicts r.1.trace = []
  cont : r.2 = .cont → ∃ bs, InBatches eff st (verdicts r.1.trace) bs ∧
    (marks r.1.trace = bs.flatMap (batchMarks key ck) ++
        finalMarks ck ((bs.flatMap workOrder).getLast?.getD st) ∨
      ∃ bs' b d i rest, bs = bs' ++ [b] ∧ passedNos b = d ++ i :: rest ∧ marks r.1.trace =
        bs'.flatMap (batchMarks key ck) ++ (batchHead key ck b d ++ passCall key b i) ++
          finalMarks ck i ∧ r.1.opt.targetReached = true)
  fail : ∀ e, r.2 = .fail e → ∃ bs u t, InBatches eff st (verdicts r.1.trace) bs ∧
    marks r.1.trace = u ++ t ∧ u <+: bs.flatMap (batchMarks key ck) ∧ (t = [] ∨ ∃ i, t = [.failed i])
  last : r.2 = .cont → ck.isSome = true → ∃ pre it c, r.1.trace = pre ++ [.saved it c]

theorem batches_nil (eff st : Nat) : InBatches eff st [] [] := ⟨rfl, by simp, by simp, by simp⟩

theorem RunP.shape {s : Sig} {eff : Nat} {r : M n × Out} (he : 0 < eff) (hb : s.base = [])
    (h : RunP s eff s.cur r) : ShapeP s.key s.ck eff s.cur r := by
  rcases h with ⟨h1, h2, h3⟩ | ⟨ref, h⟩
  · rw [hb] at h1
    refine ⟨fun _ => ⟨h1, h2⟩, fun hc => absurd hc h3, fun e _ => ?_, fun hc => absurd hc h3⟩
    exact ⟨[], [], [], by rw [h2]; exact batches_nil _ _, h1, List.nil_prefix, Or.inl rfl⟩
  · refine ⟨fun hc => absurd hc h.nostop, fun hc => ?_, fun e he' => ?_, h.last⟩
    · obtain ⟨bs, a1, a2, a3⟩ := h.cont hc
      rw [List.nil_append] at a1
      rw [hb] at a3
      simp only [List.nil_append] at a3
      exact ⟨bs, by rw [a1]; exact batches_of he a2, a3⟩
    · obtain ⟨bs, u, t, a1, a2, a3, a4⟩ := h.fail e he'
      rw [List.nil_append] at a1
      rw [hb, List.nil_append] at a3
      exact ⟨bs, u, t, by rw [a1]; exact batches_of he a2, a3, a4⟩

theorem StartsAt.shape {env : Env n} {o : Opt n} {loaded : Option (Except CkErr (Ckpt n))} {st eff : Nat}
    (h : StartsAt env o loaded st eff) (he : 1 < eff) (hp : Polite env) :
    ∃ r, run env o loaded = finish r ∧ ShapeP o.cbKey o.ckpt eff st r ∧
      (r.2 = .stop → r.1.opt.targetReached = true) := by
  cases h with
  | fresh hb hf =>
    refine ⟨_, run_fresh env o loaded hf, ?_⟩
    have h := body_fresh_par hp ⟨started env o, 0, 0, []⟩ he rfl
    have hc : (⟨started env o, 0, 0, []⟩ : M n).sig.cur = 0 := hb.unused.curIter
    have := RunP.shape (s := (⟨started env o, 0, 0, []⟩ : M n).sig) (Nat.lt_of_succ_lt he) rfl
      (by rw [hc]; exact h)
    rw [hc] at this
    rw [← started_key env o]
    refine ⟨this, fun ho => ?_⟩
    rcases (freshAll hb hf).2.2.shape with ⟨_, _, h⟩ | ⟨_, _, _, _, h, _⟩
    · exact h ho
    · exact absurd ho h
  | resumed hr =>
    rename_i c
    refine ⟨_, run_resumes env o loaded hr, ?_⟩
    have h := body_resumed_par hp ⟨(started env o).restore c, 0, 0, []⟩ he rfl
    have hk : ((started env o).restore c).cbKey = o.cbKey := started_key env o
    have := RunP.shape (s := (⟨(started env o).restore c, 0, 0, []⟩ : M n).sig) (Nat.lt_of_succ_lt he) rfl h.1
    rw [← hk]
    exact ⟨this, fun ho => absurd ho h.2⟩

/-- C57 in parallel runs, fresh or resumed, that succeed: batch by batch the callback is invoked for the
multiples of the frequency, first among the rejected candidates and then among those searched from; a
batch with a single local search invokes it for that one whatever its number.  When the target is reached
the candidates after it have no callback. -/
theorem C57_parallel {env : Env n} {o : Opt n} {loaded : Option (Except CkErr (Ckpt n))} {st eff : Nat}
    {ob : Obs n} {id : Nat} {set : List (Sol n)} (h : StartsAt env o loaded st eff) (he : 1 < eff)
    (hp : Polite env) (hb : o.obs = some ob) (hc : ob.callback = some id)
    (hok : (run env o loaded).result = .ok set) :
    ∃ bs, InBatches eff st (verdicts (run env o loaded).final.trace) bs ∧
      (calledNos (run env o loaded).final.trace = bs.flatMap (batchCalls ob.frequency) ∨
        (run env o loaded).final.opt.targetReached = true ∧ ∃ bs' b d i rest, bs = bs' ++ [b] ∧
          passedNos b = d ++ i :: rest ∧ calledNos (run env o loaded).final.trace =
            bs'.flatMap (batchCalls ob.frequency) ++ ((rejectedNos b).filter (· % ob.frequency = 0) ++
              if (passedNos b).length = 1 then [i] else (d ++ [i]).filter (· % ob.frequency = 0))) := by
  obtain ⟨r, hr, hsh, hstop⟩ := h.shape he hp
  have hk : o.cbKey = some (some id, ob.frequency) := by
    unfold Opt.cbKey
    rw [hb, Option.map_some, hc]
  rw [hk] at hsh
  rw [hr] at hok
  obtain ⟨_, hnf⟩ := finish_ok hok
  rw [hr, finish_final]
  have hfm : ∀ bs : List (List (Nat × Bool)), (bs.flatMap (batchMarks (some (some id, ob.frequency)) o.ckpt)).filterMap callNo =
      bs.flatMap (batchCalls ob.frequency) := by
    intro bs
    rw [filterMap_flatMap]
    exact congrArg (fun h => List.flatMap h bs) (funext fun b => callNo_batch id _ _ b)
  cases ho : r.2 with
  | fail e => exact absurd ho (hnf e)
  | stop =>
    obtain ⟨h1, h2⟩ := hsh.stop ho
    refine ⟨[], by rw [h2]; exact batches_nil _ _, Or.inl ?_⟩
    unfold calledNos
    rw [h1]; rfl
  | cont =>
    obtain ⟨bs, h1, h2 | ⟨bs', b, d, i, rest, h2, h3, h4, h5⟩⟩ := hsh.cont ho
    · refine ⟨bs, h1, Or.inl ?_⟩
      unfold calledNos
      rw [h2, List.filterMap_append]
      show List.filterMap callNo _ ++ List.filterMap callNo _ = _
      rw [hfm, callNo_final, List.append_nil]
    · refine ⟨bs, h1, Or.inr ⟨h5, bs', b, d, i, rest, h2, h3, ?_⟩⟩
      unfold calledNos
      rw [h4, List.filterMap_append, List.filterMap_append, List.filterMap_append]
      show List.filterMap callNo _ ++ (List.filterMap callNo _ ++ List.filterMap callNo _) ++
        List.filterMap callNo _ = _
      rw [hfm, callNo_final, List.append_nil, callNo_head, callNo_pass, List.append_assoc]
      congr 2
      split
      · rename_i hl
        rw [h3] at hl
        cases d with
        | nil => rfl
        | cons x xs => simp at hl
      · rw [List.filter_append]
        congr 1
        by_cases hz : i % ob.frequency = 0 <;> simp [hz]

/-- C57 in parallel runs with any outcome: the callbacks made are the first of those due. -/
theorem C57_parallel_any_outcome {env : Env n} {o : Opt n} {loaded : Option (Except CkErr (Ckpt n))}
    {st eff : Nat} {ob : Obs n} {id : Nat} (h : StartsAt env o loaded st eff) (he : 1 < eff)
    (hp : Polite env) (hb : o.obs = some ob) (hc : ob.callback = some id) :
    ∃ bs, InBatches eff st (verdicts (run env o loaded).final.trace) bs ∧
      calledNos (run env o loaded).final.trace <+: bs.flatMap (batchCalls ob.frequency) := by
  obtain ⟨r, hr, hsh, hstop⟩ := h.shape he hp
  have hk : o.cbKey = some (some id, ob.frequency) := by
    unfold Opt.cbKey
    rw [hb, Option.map_some, hc]
  rw [hk] at hsh
  rw [hr, finish_final]
  have hfm : ∀ bs : List (List (Nat × Bool)), (bs.flatMap (batchMarks (some (some id, ob.frequency)) o.ckpt)).filterMap callNo =
      bs.flatMap (batchCalls ob.frequency) := by
    intro bs
    rw [filterMap_flatMap]
    exact congrArg (fun h => List.flatMap h bs) (funext fun b => callNo_batch id _ _ b)
  have key : ∃ bs u t, InBatches eff st (verdicts r.1.trace) bs ∧ marks r.1.trace = u ++ t ∧
      u <+: bs.flatMap (batchMarks (some (some id, ob.frequency)) o.ckpt) ∧ t.filterMap callNo = [] := by
    cases ho : r.2 with
    | fail e =>
      obtain ⟨bs, u, t, h1, h2, h3, h4⟩ := hsh.fail e ho
      refine ⟨bs, u, t, h1, h2, h3, ?_⟩
      rcases h4 with rfl | ⟨i, rfl⟩ <;> rfl
    | stop =>
      obtain ⟨h1, h2⟩ := hsh.stop ho
      exact ⟨[], [], [], by rw [h2]; exact batches_nil _ _, h1, List.nil_prefix, rfl⟩
    | cont =>
      obtain ⟨bs, h1, h2 | ⟨bs', b, d, i, rest, h2, h3, h4, h5⟩⟩ := hsh.cont ho
      · exact ⟨bs, _, _, h1, h2, List.prefix_rfl, callNo_final _ _⟩
      · refine ⟨bs, _, _, h1, h4, ?_, callNo_final _ _⟩
        rw [h2, List.flatMap_append, List.flatMap_singleton]
        exact (List.prefix_append_right_inj _).2 (batch_prefix _ _ h3)
  obtain ⟨bs, u, t, h1, h2, h3, h4⟩ := key
  refine ⟨bs, h1, ?_⟩
  unfold calledNos
  rw [h2, List.filterMap_append]
  show List.filterMap callNo u ++ List.filterMap callNo t <+: _
  rw [h4, List.append_nil, ← hfm]
  exact h3.filterMap callNo

/-- C49 in parallel runs, fresh or resumed, that succeed: batch by batch a checkpoint is written for the
multiples of the save frequency, first among the rejected candidates and then among those searched from,
and one more at the end under the number worked off last.  When the target is reached the candidate that
reaches it has only the final checkpoint.  If it is reached in stage 1, nothing is written. -/
theorem C49_parallel {env : Env n} {o : Opt n} {loaded : Option (Except CkErr (Ckpt n))} {st eff : Nat}
    {cfg : CkptConfig} {set : List (Sol n)} (h : StartsAt env o loaded st eff) (he : 1 < eff)
    (hp : Polite env) (hc : o.ckpt = some cfg) (hok : (run env o loaded).result = .ok set) :
    (writtenNos (run env o loaded).final.trace = [] ∧ verdicts (run env o loaded).final.trace = [] ∧
        (run env o loaded).final.opt.targetReached = true) ∨
    ∃ bs, InBatches eff st (verdicts (run env o loaded).final.trace) bs ∧
      (writtenNos (run env o loaded).final.trace = bs.flatMap (batchWrites cfg.saveFrequency) ++
          [(bs.flatMap workOrder).getLast?.getD st] ∨
        (run env o loaded).final.opt.targetReached = true ∧ ∃ bs' b d i rest, bs = bs' ++ [b] ∧
          passedNos b = d ++ i :: rest ∧ writtenNos (run env o loaded).final.trace =
            bs'.flatMap (batchWrites cfg.saveFrequency) ++
              ((rejectedNos b ++ d).filter (· % cfg.saveFrequency = 0) ++ [i])) := by
  obtain ⟨r, hr, hsh, hstop⟩ := h.shape he hp
  rw [hc] at hsh
  rw [hr] at hok
  obtain ⟨_, hnf⟩ := finish_ok hok
  have hfm : ∀ bs : List (List (Nat × Bool)), (bs.flatMap (batchMarks o.cbKey (some cfg))).filterMap writeNo =
      bs.flatMap (batchWrites cfg.saveFrequency) := by
    intro bs
    rw [filterMap_flatMap]
    exact congrArg (fun h => List.flatMap h bs) (funext fun b => writeNo_batch _ _ b)
  rw [hr, finish_final]
  cases ho : r.2 with
  | fail e => exact absurd ho (hnf e)
  | stop =>
    obtain ⟨h1, h2⟩ := hsh.stop ho
    refine Or.inl ⟨?_, h2, hstop ho⟩
    unfold writtenNos
    rw [h1]; rfl
  | cont =>
    right
    obtain ⟨bs, h1, h2 | ⟨bs', b, d, i, rest, h2, h3, h4, h5⟩⟩ := hsh.cont ho
    · refine ⟨bs, h1, Or.inl ?_⟩
      unfold writtenNos
      rw [h2, List.filterMap_append]
      show List.filterMap writeNo _ ++ _ = _
      rw [hfm]
      rfl
    · refine ⟨bs, h1, Or.inr ⟨h5, bs', b, d, i, rest, h2, h3, ?_⟩⟩
      unfold writtenNos
      rw [h4, List.filterMap_append, List.filterMap_append, List.filterMap_append]
      show List.filterMap writeNo _ ++ (List.filterMap writeNo _ ++ List.filterMap writeNo _) ++
        List.filterMap writeNo _ = _
      rw [hfm, writeNo_head, writeNo_pass, List.append_nil, List.append_assoc]
      rfl

/-- C49 in parallel runs that fail: the checkpoints written are the first of those due. -/
theorem C49_parallel_failing {env : Env n} {o : Opt n} {loaded : Option (Except CkErr (Ckpt n))}
    {st eff : Nat} {cfg : CkptConfig} {e : Err} (h : StartsAt env o loaded st eff) (he : 1 < eff)
    (hp : Polite env) (hc : o.ckpt = some cfg) (hres : (run env o loaded).result = .error e)
    (hne : e ≠ .noFeasibleSolution 0) :
    ∃ bs, InBatches eff st (verdicts (run env o loaded).final.trace) bs ∧
      writtenNos (run env o loaded).final.trace <+: bs.flatMap (batchWrites cfg.saveFrequency) := by
  obtain ⟨r, hr, hsh, _⟩ := h.shape he hp
  rw [hc] at hsh
  rw [hr] at hres
  have hfm : ∀ bs : List (List (Nat × Bool)), (bs.flatMap (batchMarks o.cbKey (some cfg))).filterMap writeNo =
      bs.flatMap (batchWrites cfg.saveFrequency) := by
    intro bs
    rw [filterMap_flatMap]
    exact congrArg (fun h => List.flatMap h bs) (funext fun b => writeNo_batch _ _ b)
  rw [hr, finish_final]
  have hfail : ∃ e', r.2 = .fail e' := by
    obtain ⟨m, o'⟩ := r
    cases o' with
    | fail e' => exact ⟨e', rfl⟩
    | cont =>
      exfalso
      unfold finish at hres
      dsimp only at hres
      split at hres
      · cases hres
      · cases hres; exact hne rfl
    | stop =>
      exfalso
      unfold finish at hres
      dsimp only at hres
      split at hres
      · cases hres
      · cases hres; exact hne rfl
  obtain ⟨e', he'⟩ := hfail
  obtain ⟨bs, u, t, h1, h2, h3, h4⟩ := hsh.fail e' he'
  refine ⟨bs, h1, ?_⟩
  unfold writtenNos
  rw [h2, List.filterMap_append]
  show List.filterMap writeNo u ++ List.filterMap writeNo t <+: _
  rw [show t.filterMap writeNo = [] from by rcases h4 with rfl | ⟨i, rfl⟩ <;> rfl, List.append_nil, ← hfm]
  exact h3.filterMap writeNo

theorem StartsAt.ends {env : Env n} {o : Opt n} {loaded : Option (Except CkErr (Ckpt n))} {st eff : Nat}
    (h : StartsAt env o loaded st eff) (hne : ∀ c, Resumes o loaded c → c.solutionSet ≠ some [])
    (hp : Polite env) :
    ∃ r o1, run env o loaded = finish r ∧ Reach env ⟨o1, 0, 0, []⟩ r.1 ∧ o1.solset ≠ some [] ∧
      (r.2 = .cont → o.ckpt.isSome = true → ∃ pre it c, r.1.trace = pre ++ [.saved it c]) ∧
      (r.2 = .stop → marks r.1.trace = [] ∧ r.1.opt.targetReached = true) := by
  by_cases he : 1 < eff
  · obtain ⟨r, hr, hsh, hst⟩ := h.shape he hp
    cases h with
    | fresh hb hf =>
      have h1 := run_fresh env o loaded hf
      have hfin : (run env o loaded).final = r.1 := by rw [hr, finish_final]
      refine ⟨r, started env o, hr, ?_, ?_, hsh.last, fun ho => ⟨(hsh.stop ho).1, hst ho⟩⟩
      · rw [← hfin, h1, finish_final]
        exact Steps.body env false _
      · show o.solset ≠ some []
        rw [hb.unused.solset]; simp
    | resumed hr' =>
      rename_i c
      have h1 := run_resumes env o loaded hr'
      have hfin : (run env o loaded).final = r.1 := by rw [hr, finish_final]
      refine ⟨r, (started env o).restore c, hr, ?_, hne c hr', hsh.last, fun ho => ⟨(hsh.stop ho).1, hst ho⟩⟩
      rw [← hfin, h1, finish_final]
      exact Steps.body env true _
  · cases h with
    | fresh hb hf =>
      have hm := body_fresh_mk hp ⟨started env o, 0, 0, []⟩ he
      have hc : (⟨started env o, 0, 0, []⟩ : M n).sig.cur = 0 := hb.unused.curIter
      have hsh := RunMk.shape (s := (⟨started env o, 0, 0, []⟩ : M n).sig) rfl (by rw [hc]; exact hm)
      refine ⟨_, started env o, run_fresh env o loaded hf, Steps.body env false _, ?_, hsh.last,
        fun ho => ⟨hsh.stop ho, ?_⟩⟩
      · show o.solset ≠ some []
        rw [hb.unused.solset]; simp
      · rcases (freshAll hb hf).2.2.shape with ⟨_, _, h⟩ | ⟨_, _, _, _, h, _⟩
        · exact h ho
        · exact absurd ho h
    | resumed hr =>
      rename_i c
      obtain ⟨ref, hm⟩ := body_resumed_mk hp ⟨(started env o).restore c, 0, 0, []⟩ he
      exact ⟨_, (started env o).restore c, run_resumes env o loaded hr, Steps.body env true _, hne c hr,
        hm.last, fun ho => absurd ho hm.nostop⟩

/-- C49, end, in every mode: the last thing a successful run with checkpoints does is to write a checkpoint
with exactly the returned solution set; only when the target was reached in stage 1 is there neither a
stage-2 candidate nor a checkpoint. -/
theorem C49_final_every_mode {env : Env n} {o : Opt n} {loaded : Option (Except CkErr (Ckpt n))}
    {st eff : Nat} {cfg : CkptConfig} {set : List (Sol n)} (h : StartsAt env o loaded st eff)
    (hne : ∀ c, Resumes o loaded c → c.solutionSet ≠ some []) (hp : Polite env) (hc : o.ckpt = some cfg)
    (hok : (run env o loaded).result = .ok set) :
    (marks (run env o loaded).final.trace = [] ∧ (run env o loaded).final.opt.targetReached = true) ∨
    ∃ pre it c, (run env o loaded).final.trace = pre ++ [.saved it c] ∧ c.solutionSet = some set := by
  obtain ⟨r, o1, hr, hreach, hno, hlast, hstop⟩ := h.ends hne hp
  rw [hr] at hok ⊢
  obtain ⟨hset, hnf⟩ := finish_ok hok
  rw [finish_final]
  cases ho : r.2 with
  | fail e => exact absurd ho (hnf e)
  | stop => exact Or.inl (hstop ho)
  | cont =>
    obtain ⟨pre, it, c, hl⟩ := hlast ho (by rw [hc]; rfl)
    refine Or.inr ⟨pre, it, c, hl, ?_⟩
    have h4 := savedOk hno hreach pre it c [] hl
    have h5 := (histInv hno hreach).solset
    rw [h4.2.1, ← hset, h5, hl, procs_append]
    simp [procs]

/-- A parallel run with a callback on every third iteration and checkpoints after every other. -/
def parCalling : Opt 1 :=
  ((demo.addObserver (((Obs.new.withStage2).withCallback 7).withFrequency 3)).withCheckpointing
    ⟨"run", 2, true, false⟩).setBatch 2

theorem parCalling_built : Built parCalling :=
  Built.batch 2 (Built.checkpointing _ (Built.observer _ demo_built))

/-- The hypotheses of the theorems above hold for a run with two batches. -/
example : StartsAt inOrder parCalling none 0 (parCalling.effBatch inOrder.threads 0) ∧
    1 < parCalling.effBatch inOrder.threads 0 ∧ Polite inOrder ∧
    parCalling.ckpt = some ⟨"run", 2, true, false⟩ ∧ succeeds (run inOrder parCalling none) = true ∧
    verdicts (run inOrder parCalling none).final.trace = [(0, false), (1, false), (2, true), (3, false)] ∧
    writtenNos (run inOrder parCalling none).final.trace = [0, 2, 2] :=
  ⟨.fresh parCalling_built (Or.inl rfl), by decide +kernel, fun _ _ _ => ⟨rfl, rfl⟩, rfl, by decide +kernel,
    by decide +kernel, by decide +kernel⟩

/-- In parallel runs the frequency is not always respected: here the callback has frequency three and is
invoked for iterations 0, 3 and 2, in this order. -/
theorem C57_parallel_violated : ∃ (e : Env 1) (o : Opt 1) (b : Obs 1) (id i : Nat), Built o ∧ Polite e ∧
    o.obs = some b ∧ b.callback = some id ∧ i ∈ calledNos (run e o none).final.trace ∧
    i % b.frequency ≠ 0 ∧ calledNos (run e o none).final.trace = [0, 3, 2] ∧
    succeeds (run e o none) = true :=
  ⟨inOrder, parCalling, ((Obs.new.withStage2).withCallback 7).withFrequency 3, 7, 2, parCalling_built,
    (fun _ _ _ => ⟨rfl, rfl⟩), rfl, rfl, by decide +kernel, by decide, by decide +kernel, by decide +kernel⟩

/-- A parallel run can end with a checkpoint whose number is below those of candidates already worked
off: here the last number is 2 although candidate 3 was examined and rejected before. -/
theorem C49_parallel_last_number : ∃ (e : Env 1) (o : Opt 1), Built o ∧ Polite e ∧
    verdicts (run e o none).final.trace = [(0, false), (1, false), (2, true), (3, false)] ∧
    (writtenNos (run e o none).final.trace).getLast? = some 2 ∧ succeeds (run e o none) = true :=
  ⟨inOrder, parCalling, parCalling_built, (fun _ _ _ => ⟨rfl, rfl⟩), by decide +kernel, by decide +kernel,
    by decide +kernel⟩

/-- A parallel run whose second write fails. -/
example : writtenNos (run { inOrder with io := fun k => if k = 1 then some .io else none } parCalling
      none).final.trace = [0] ∧
    (run { inOrder with io := fun k => if k = 1 then some .io else none } parCalling none).result =
      .error (.checkpoint .io) := by decide +kernel

end GS.Props
