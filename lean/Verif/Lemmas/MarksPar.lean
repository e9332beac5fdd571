/- Order of iterations, callbacks and checkpoint writes in parallel runs. -/
import Verif.Lemmas.Marks
import Verif.Lemmas.Par

namespace GS
variable {n : Nat}

/-- Number and filter decision of the examined candidates. -/
def Event.verdict : Event n → Option (Nat × Bool)
  | .examine it _ _ b => some (it, b)
  | _ => none

/-- The filter decisions of a trace, in order. -/
def verdicts (tr : List (Event n)) : List (Nat × Bool) := tr.filterMap Event.verdict

theorem verdicts_append (a b : List (Event n)) : verdicts (a ++ b) = verdicts a ++ verdicts b := by
  simp [verdicts]

theorem verdicts_nil {t : List (Event n)} (h : ∀ i, Mark.iteration i ∉ marks t) : verdicts t = [] := by
  unfold verdicts
  rw [List.filterMap_eq_nil_iff]
  intro e he
  cases e with
  | examine it p v b =>
    have : Mark.iteration it ∈ marks t := List.mem_filterMap.2 ⟨_, he, rfl⟩
    exact absurd this (h it)
  | _ => rfl

/-- Actions whose new marks contain no iteration add no decision. -/
theorem verdicts_same {env : Env n} {a : Act n} (hs : Steps env a) {m : M n} {t : List Mark}
    (h : marks (a m).1.trace = marks m.trace ++ t) (ht : ∀ i, Mark.iteration i ∉ t) :
    verdicts (a m).1.trace = verdicts m.trace := by
  obtain ⟨u, hu⟩ := Reach.trace (hs m)
  rw [hu] at h ⊢
  rw [marks_append] at h
  rw [verdicts_append, verdicts_nil (t := u) (by rw [List.append_cancel_left h]; exact ht), List.append_nil]

/-- The callback of a lone local search in a parallel batch: invoked whatever its number. -/
def loneMarks (key : Option (Option Nat × Nat)) (i : Nat) : List Mark :=
  match key with
  | some (some _, _) => [.called i]
  | _ => []

theorem callMarks_noIter (key : Option (Option Nat × Nat)) (i j : Nat) :
    Mark.iteration j ∉ callMarks key i := by
  unfold callMarks
  split
  · split <;> simp
  · simp
theorem loneMarks_noIter (key : Option (Option Nat × Nat)) (i j : Nat) :
    Mark.iteration j ∉ loneMarks key i := by
  unfold loneMarks
  split <;> simp
theorem saveMarks_noIter (ck : Option CkptConfig) (i j : Nat) : Mark.iteration j ∉ saveMarks ck i := by
  unfold saveMarks
  split
  · split <;> simp
  · simp

/-- Marks of working one candidate of a parallel batch. -/
structure FinP (s : Sig) (i : Nat) (L : List Mark) (r : M n × Out) : Prop where
  cont : r.2 = .cont → r.1.sig = { s with base := s.base ++ (L ++ saveMarks s.ck i), cur := i }
  stop : r.2 = .stop → r.1.sig = { s with base := s.base ++ L, cur := i } ∧ r.1.opt.targetReached = true
  fail : ∀ e, r.2 = .fail e → ∃ t, marks r.1.trace = s.base ++ t ∧ t <+: L ++ [.failed i]

theorem save_fin {env : Env n} {it : Nat} {s : Sig} {L : List Mark} {m : M n}
    (h : m.sig = { s with base := s.base ++ L, cur := it }) : FinP s it L (Act.save env m) := by
  have h1 : marks m.trace = s.base ++ L := congrArg Sig.base h
  have h2 : m.opt.cbKey = s.key := congrArg Sig.key h
  have h3 : m.opt.ckpt = s.ck := congrArg Sig.ck h
  have h4 : m.opt.curIter = it := congrArg Sig.cur h
  have h5 : (m.opt.params, m.opt.par, m.opt.batch) = s.cfg := congrArg Sig.cfg h
  unfold Act.save
  rw [h3]
  cases hck : s.ck with
  | none =>
    refine ⟨fun _ => ?_, (fun hc => by cases hc), (fun _ hc => by cases hc)⟩
    rw [h, hck]
    simp [saveMarks]
  | some cfg =>
    dsimp only
    split
    · exact ⟨(fun hc => by cases hc), (fun hc => by cases hc), fun _ _ => ⟨_, h1, ⟨_, rfl⟩⟩⟩
    · rw [h4]
      split
      · rename_i hz
        unfold Act.writeCkpt
        dsimp only
        split
        · refine ⟨(fun hc => by cases hc), (fun hc => by cases hc), fun _ _ => ?_⟩
          refine ⟨L ++ [.failed it], ?_, List.prefix_rfl⟩
          dsimp only
          rw [marks_append, h1, h4]
          simp [marks, Event.mark]
        · refine ⟨fun _ => ?_, (fun hc => by cases hc), (fun _ hc => by cases hc)⟩
          unfold M.sig
          dsimp only
          rw [marks_append, h1, h2, h3, h4, h5, hck]
          simp [marks, Event.mark, saveMarks, hz]
      · rename_i hz
        refine ⟨fun _ => ?_, (fun hc => by cases hc), (fun _ hc => by cases hc)⟩
        rw [h, hck]
        simp [saveMarks, hz]

theorem callback_out {env : Env n} (hp : Polite env) {it : Nat} {s : Sig} {m : M n}
    (h : m.sig = { s with cur := it }) :
    (Act.callback env it m).2 = .cont ∧ (Act.callback env it m).1.sig =
        { s with base := s.base ++ callMarks s.key it, cur := it } ∨
      (∃ e, (Act.callback env it m).2 = .fail e) ∧ (Act.callback env it m).1 = m := by
  have h1 : marks m.trace = s.base := congrArg Sig.base h
  have h2 : m.opt.cbKey = s.key := congrArg Sig.key h
  have h3 : m.opt.ckpt = s.ck := congrArg Sig.ck h
  have h4 : m.opt.curIter = it := congrArg Sig.cur h
  have h5 : (m.opt.params, m.opt.par, m.opt.batch) = s.cfg := congrArg Sig.cfg h
  unfold Act.callback
  cases hb : m.opt.obs with
  | none =>
    have : s.key = none := by rw [← h2]; unfold Opt.cbKey; rw [hb]; rfl
    left
    dsimp only
    rw [h, this]
    exact ⟨rfl, by simp [callMarks]⟩
  | some b =>
    have hk : s.key = some (b.callback, b.frequency) := by
      rw [← h2]; unfold Opt.cbKey; rw [hb]; rfl
    dsimp only
    unfold Obs.shouldInvoke
    cases hc : b.callback with
    | none =>
      left
      show Out.cont = _ ∧ m.sig = _
      rw [h, hk, hc]
      exact ⟨rfl, by simp [callMarks]⟩
    | some c =>
      dsimp only [Option.isSome]
      rw [if_pos rfl]
      by_cases hf : b.frequency = 0
      · rw [if_pos hf]
        right; exact ⟨⟨_, rfl⟩, rfl⟩
      · rw [if_neg hf]
        left
        by_cases hz : it % b.frequency = 0
        · rw [show (it % b.frequency == 0) = true from by simpa using hz]
          dsimp only
          refine ⟨invoke_cont env _ m, ?_⟩
          obtain ⟨g1, g2, g3, g5, g4⟩ := invoke_sig hp (16 + it) m
          unfold M.sig
          rw [g1, g2, g3, g4, g5, h1, h2, h3, h4, h5, hk, hc]
          simp [marks, Event.mark, callMarks, hz]
        · rw [show (it % b.frequency == 0) = false from by simpa using hz]
          dsimp only
          refine ⟨rfl, ?_⟩
          rw [h, hk, hc]
          simp [callMarks, hz]

theorem invoke_fin {env : Env n} (hp : Polite env) {it : Nat} {s : Sig} {m : M n}
    (h : m.sig = { s with cur := it }) : (Act.invoke env (16 + it) m).1.sig =
        { s with base := s.base ++ loneMarks s.key it, cur := it } := by
  have h1 : marks m.trace = s.base := congrArg Sig.base h
  have h2 : m.opt.cbKey = s.key := congrArg Sig.key h
  have h3 : m.opt.ckpt = s.ck := congrArg Sig.ck h
  have h4 : m.opt.curIter = it := congrArg Sig.cur h
  have h5 : (m.opt.params, m.opt.par, m.opt.batch) = s.cfg := congrArg Sig.cfg h
  obtain ⟨g1, g2, g3, g5, g4⟩ := invoke_sig hp (16 + it) m
  unfold M.sig
  rw [g1, g2, g3, g4, g5, h1, h2, h3, h4, h5]
  have : marks [(.callback (16 + it) Obs.new (F64.zero, 0) : Event n)] = [.called it] := by
    simp [marks, Event.mark]
  rw [this]
  rfl

theorem FinP.fail0 {s : Sig} {i : Nat} {L : List Mark} {m : M n} {e : Err} (h : marks m.trace = s.base) :
    FinP s i L (m, .fail e) :=
  ⟨(fun hc => by cases hc), (fun hc => by cases hc), fun _ _ => ⟨[], by rw [h]; simp, List.nil_prefix⟩⟩

/-- `begin` sets the iteration number; the rest follows. -/
theorem begin_fin {env : Env n} {i : Nat} {L : List Mark} {a : Act n} {s : Sig}
    (h : ∀ m, m.sig = { s with cur := i } → FinP s i L (a m)) {m : M n} (hm : m.sig = s) :
    FinP s i L ((Act.beginIter env i ;; a) m) := by
  subst hm
  rw [Act.seq_def]
  cases hu : Opt.iterSeed env m.opt.params.seed i with
  | none =>
    have eb : Act.beginIter env i m = ({ m with opt := { m.opt with
        curIter := i
        unchanged := m.uc } }, .fail .panic) := by
      unfold Act.beginIter; dsimp only; rw [hu]
    rw [eb, if_neg (fun hc => by cases hc)]
    exact FinP.fail0 rfl
  | some sd =>
    have eb : Act.beginIter env i m = ({ m with opt := { m.opt with
        curIter := i
        unchanged := m.uc
        curSeed := sd } }, .cont) := by
      unfold Act.beginIter; dsimp only; rw [hu]
    rw [eb, if_pos rfl]
    exact h _ rfl

theorem mute_fin {i : Nat} {L : List Mark} {a b : Act n} {s : Sig} (ha : Mute a)
    (hst : ∀ m, (a m).2 ≠ .stop)
    (h : ∀ m, m.sig = { s with cur := i } → FinP s i L (b m)) {m : M n} (hm : m.sig = { s with cur := i }) :
    FinP s i L ((a ;; b) m) := by
  rw [Act.seq_def]
  split
  · exact h _ ((ha m).trans hm)
  · cases ho : (a m).2 with
    | cont => exact absurd ho ‹_›
    | stop => exact absurd ho (hst m)
    | fail e =>
      have : a m = ((a m).1, .fail e) := by rw [← ho]
      rw [this]
      exact FinP.fail0 (congrArg Sig.base ((ha m).trans hm))

theorem quick_fin {env : Env n} (hp : Polite env) (i : Nat) (m : M n) :
    FinP m.sig i (callMarks m.sig.key i) (Act.quickPar env i m) ∧ (Act.quickPar env i m).2 ≠ .stop := by
  constructor
  · unfold Act.quickPar
    refine begin_fin (fun m1 h1 => ?_) rfl
    refine mute_fin (Mute.reject i) (fun m => by unfold Act.reject; split <;> exact fun hc => by cases hc)
      (fun m2 h2 => ?_) h1
    refine mute_fin (Mute.obsIter i) (fun m hc => by cases hc) (fun m3 h3 => ?_) h2
    rw [Act.seq_def]
    rcases callback_out hp h3 with ⟨k1, k2⟩ | ⟨⟨e, k1⟩, k2⟩
    · rw [if_pos k1]
      exact save_fin k2
    · rw [if_neg (by rw [k1]; exact fun hc => by cases hc)]
      have : Act.callback env i m3 = (m3, .fail e) :=
        Prod.ext k2 k1
      rw [this]
      exact FinP.fail0 (congrArg Sig.base h3)
  · have hns : ∀ (a b : Act n), (∀ m, (a m).2 ≠ .stop) → (∀ m, (b m).2 ≠ .stop) → ∀ m, ((a ;; b) m).2 ≠ .stop := by
      intro a b ha hb m
      rw [Act.seq_def]
      split
      · exact hb _
      · exact ha m
    unfold Act.quickPar
    refine hns _ _ (fun m => ?_) (hns _ _ (fun m => ?_) (hns _ _ (fun m hc => by cases hc)
      (hns _ _ (fun m => ?_) fun m => ?_))) m
    · unfold Act.beginIter
      dsimp only
      split <;> exact fun hc => by cases hc
    · unfold Act.reject; split <;> exact fun hc => by cases hc
    · unfold Act.callback
      split
      · exact fun hc => by cases hc
      · split
        · exact fun hc => by cases hc
        · rw [invoke_cont]; exact fun hc => by cases hc
        · exact fun hc => by cases hc
    · unfold Act.save Act.writeCkpt
      split
      · exact fun hc => by cases hc
      · split
        · exact fun hc => by cases hc
        · split
          · dsimp only
            split <;> exact fun hc => by cases hc
          · exact fun hc => by cases hc

theorem target_fin {env : Env n} {i : Nat} {L : List Mark} {s : Sig} {m : M n}
    (h : m.sig = { s with base := s.base ++ L, cur := i }) :
    FinP s i L ((Act.stopIfTarget ;; Act.save env) m) := by
  rw [Act.seq_def]
  by_cases ht : m.opt.targetReached = true
  · have e : Act.stopIfTarget m = (m, .stop) := by
      unfold Act.stopIfTarget
      rw [if_pos ht]
    rw [e, if_neg (fun hc => by cases hc)]
    exact ⟨(fun hc => by cases hc), fun _ => ⟨h, ht⟩, (fun _ hc => by cases hc)⟩
  · have e : Act.stopIfTarget m = (m, .cont) := by
      unfold Act.stopIfTarget
      rw [if_neg ht]
    rw [e, if_pos rfl]
    exact save_fin h

theorem process_fin {i : Nat} {L : List Mark} {s : Sig} {x : Sol n} {k : Verdict → Act n}
    (h : ∀ v m, m.sig = { s with cur := i } → FinP s i L (k v m)) {m : M n}
    (hm : m.sig = { s with cur := i }) : FinP s i L (Act.process x k m) := by
  unfold Act.process
  have h' := Opt.process_sig m.opt x
  have e : (({ m with opt := (m.opt.process x).1
                      trace := m.trace ++ [.processed x (m.opt.process x).2] } : M n)).sig = m.sig := by
    dsimp only [M.sig]
    rw [marks_snoc_none _ _ rfl, h'.1, h'.2.1, h'.2.2.1, h'.2.2.2]
  dsimp only
  split
  · exact FinP.fail0 (congrArg Sig.base (e.trans hm))
  · exact h _ _ (e.trans hm)

theorem result_fin {env : Env n} (hp : Polite env) (i : Nat) (v : F64) (x : Sol n) (c : Nat) (m : M n) :
    FinP m.sig i (callMarks m.sig.key i) (Act.resultPar env i v x c m) := by
  unfold Act.resultPar
  refine begin_fin (fun m1 h1 => ?_) rfl
  refine mute_fin (Mute.setThreshold v) (fun m hc => by cases hc) (fun m2 h2 => ?_) h1
  refine process_fin (fun w m3 h3 => ?_) h2
  refine mute_fin (Mute.obsLocal _ _) (fun m hc => by cases hc) (fun m4 h4 => ?_) h3
  refine mute_fin (Mute.obsIter i) (fun m hc => by cases hc) (fun m5 h5 => ?_) h4
  rw [Act.seq_def]
  rcases callback_out hp h5 with ⟨k1, k2⟩ | ⟨⟨e, k1⟩, k2⟩
  · rw [if_pos k1]
    exact target_fin k2
  · rw [if_neg (by rw [k1]; exact fun hc => by cases hc)]
    have : Act.callback env i m5 = (m5, .fail e) :=
      Prod.ext k2 k1
    rw [this]
    exact FinP.fail0 (congrArg Sig.base h5)

theorem single_fin {env : Env n} (hp : Polite env) (i : Nat) (p : Pt n) (v : F64) (m : M n) :
    FinP m.sig i (loneMarks m.sig.key i) (Act.singlePar env i p v m) := by
  unfold Act.singlePar
  refine begin_fin (fun m1 h1 => ?_) rfl
  refine mute_fin (Mute.setThreshold v) (fun m hc => by cases hc) (fun m2 h2 => ?_) h1
  unfold Act.search
  split
  · refine FinP.fail0 ?_
    dsimp only
    rw [marks_snoc_none _ _ rfl]
    exact congrArg Sig.base h2
  · refine process_fin (fun w m3 h3 => ?_) ?_
    · refine mute_fin (Mute.obsLocal _ _) (fun m hc => by cases hc) (fun m4 h4 => ?_) h3
      refine mute_fin (Mute.obsIter i) (fun m hc => by cases hc) (fun m5 h5 => ?_) h4
      rw [Act.seq_def, if_pos (invoke_cont env _ m5)]
      exact target_fin (invoke_fin hp h5)
    · refine Eq.trans ?_ h2
      dsimp only [M.sig]
      rw [marks_snoc_none _ _ rfl]

/-- Marks of working a list of candidates; `g` gives the callback marks. -/
structure RowP (s : Sig) (g : Nat → List Mark) (l : List Nat) (r : M n × Out) : Prop where
  cont : r.2 = .cont → r.1.sig = { s with
    base := s.base ++ l.flatMap (fun i => g i ++ saveMarks s.ck i)
    cur := l.getLast?.getD s.cur }
  stop : r.2 = .stop → ∃ d i rest, l = d ++ i :: rest ∧ r.1.sig = { s with
    base := s.base ++ (d.flatMap (fun i => g i ++ saveMarks s.ck i) ++ g i)
    cur := i } ∧ r.1.opt.targetReached = true
  fail : ∀ e, r.2 = .fail e → ∃ d i rest t, l = d ++ i :: rest ∧ marks r.1.trace =
    s.base ++ (d.flatMap (fun i => g i ++ saveMarks s.ck i) ++ t) ∧ t <+: g i ++ [.failed i]

theorem row_all {α : Type} {s : Sig} {g : Nat → List Mark} {f : α → Act n} {num : α → Nat} (l : List α)
    (h : ∀ x ∈ l, ∀ m : M n, m.sig.key = s.key → FinP m.sig (num x) (g (num x)) (f x m)) (m : M n)
    (hk : m.sig.key = s.key) :
    RowP m.sig g (l.map num) (Act.all (l.map f) m) := by
  induction l generalizing m with
  | nil =>
    refine ⟨fun _ => ?_, (fun hc => by cases hc), (fun _ hc => by cases hc)⟩
    simp [Act.all, Act.skip]
  | cons x l ih =>
    have h1 := h x (by simp) m hk
    rw [List.map_cons, List.map_cons, show Act.all (f x :: l.map f) = (f x ;; Act.all (l.map f)) from rfl,
      Act.seq_def]
    by_cases hc : (f x m).2 = .cont
    · rw [if_pos hc]
      have e1 := h1.cont hc
      have i1 := ih (fun y hy => h y (by simp [hy])) (f x m).1 (by rw [e1]; exact hk)
      rw [e1] at i1
      refine ⟨fun hcc => ?_, fun hcc => ?_, fun e hcc => ?_⟩
      · rw [i1.cont hcc]
        show (⟨_, _, _, _, _⟩ : Sig) = ⟨_, _, _, _, _⟩
        congr 1
        · simp
        · dsimp only
          rw [List.getLast?_cons]
          simp
      · obtain ⟨d, i, rest, a, b, c⟩ := i1.stop hcc
        refine ⟨num x :: d, i, rest, by rw [a]; rfl, ?_, c⟩
        rw [b]
        simp
      · obtain ⟨d, i, rest, t, a, b, c⟩ := i1.fail e hcc
        refine ⟨num x :: d, i, rest, t, by rw [a]; rfl, ?_, c⟩
        rw [b]
        simp
    · rw [if_neg hc]
      refine ⟨fun hcc => absurd hcc hc, fun hcc => ?_, fun e hcc => ?_⟩
      · exact ⟨[], num x, l.map num, rfl, by simpa using (h1.stop hcc).1, (h1.stop hcc).2⟩
      · obtain ⟨t, a, b⟩ := h1.fail e hcc
        exact ⟨[], num x, l.map num, t, rfl, by simpa using a, b⟩

theorem all_nostop {l : List (Act n)} (h : ∀ a ∈ l, ∀ m, (a m).2 ≠ .stop) (m : M n) :
    (Act.all l m).2 ≠ .stop := by
  induction l generalizing m with
  | nil => exact fun hc => by cases hc
  | cons a l ih =>
    rw [show Act.all (a :: l) = (a ;; Act.all l) from rfl, Act.seq_def]
    split
    · exact ih (fun x hx => h x (by simp [hx])) _
    · exact h a (by simp) m

/-- Numbers of the rejected candidates of a batch. -/
def rejectedNos (b : List (Nat × Bool)) : List Nat := (b.filter fun x => !x.2).map Prod.fst
/-- Numbers of the candidates of a batch that pass the filters. -/
def passedNos (b : List (Nat × Bool)) : List Nat := (b.filter fun x => x.2).map Prod.fst

/-- The callback for a passing candidate: a lone one is reported whatever its number. -/
def passCall (key : Option (Option Nat × Nat)) (b : List (Nat × Bool)) (i : Nat) : List Mark :=
  if (passedNos b).length = 1 then loneMarks key i else callMarks key i

/-- The marks of a complete parallel batch, up to the candidates `d` that pass. -/
def batchHead (key : Option (Option Nat × Nat)) (ck : Option CkptConfig) (b : List (Nat × Bool))
    (d : List Nat) : List Mark :=
  b.map (fun x => Mark.iteration x.1) ++
    ((rejectedNos b).flatMap (fun i => callMarks key i ++ saveMarks ck i) ++
      d.flatMap fun i => passCall key b i ++ saveMarks ck i)

/-- The marks of a complete parallel batch: its candidates are examined, then the rejected ones are worked
off, then the others. -/
def batchMarks (key : Option (Option Nat × Nat)) (ck : Option CkptConfig) (b : List (Nat × Bool)) :
    List Mark := batchHead key ck b (passedNos b)

/-- The order in which the candidates of a parallel batch are worked off. -/
def workOrder (b : List (Nat × Bool)) : List Nat := rejectedNos b ++ passedNos b

/-- Marks of a parallel batch with the decisions `b`. -/
structure BatchP (s : Sig) (b : List (Nat × Bool)) (r : M n × Out) : Prop where
  cont : r.2 = .cont → r.1.sig = { s with
    base := s.base ++ batchMarks s.key s.ck b
    cur := (workOrder b).getLast?.getD s.cur }
  stop : r.2 = .stop → ∃ d i rest, passedNos b = d ++ i :: rest ∧ r.1.sig = { s with
    base := s.base ++ (batchHead s.key s.ck b d ++ passCall s.key b i)
    cur := i } ∧ r.1.opt.targetReached = true
  fail : ∀ e, r.2 = .fail e → ∃ u t, marks r.1.trace = s.base ++ (u ++ t) ∧ u <+: batchMarks s.key s.ck b ∧
    (t = [] ∨ ∃ i, t = [.failed i])

theorem row_locals {env : Env n} (hp : Polite env) (first : Nat) (cands : List (Nat × Pt n × F64)) (m : M n)
    (hpar : m.opt.par = true) :
    RowP m.sig (fun i => if (cands.map Prod.fst).length = 1 then loneMarks m.sig.key i
      else callMarks m.sig.key i) (cands.map Prod.fst) (Act.localsPar env first cands m) := by
  unfold Act.localsPar
  rw [hpar, Bool.and_true]
  by_cases h2 : 2 ≤ cands.length
  · rw [if_pos (by simpa using h2)]
    unfold Act.groupPar
    have hsig : (({ m with trace := m.trace ++ cands.map (Act.solveEvent env m.opt) } : M n)).sig = m.sig := by
      dsimp only [M.sig]
      rw [marks_append]
      have : marks (cands.map (Act.solveEvent env m.opt)) = [] := by
        unfold marks
        rw [List.filterMap_eq_nil_iff]
        intro e he
        rw [List.mem_map] at he
        obtain ⟨_, _, rfl⟩ := he
        rfl
      rw [this, List.append_nil]
    cases hrs : Act.parCollect (Act.solveTask env m.opt) cands (env.solveOrder first) with
    | error e =>
      dsimp only
      refine ⟨(fun hc => by cases hc), (fun hc => by cases hc), fun e _ => ?_⟩
      clear hrs
      cases cands with
      | nil => simp at h2
      | cons c cs =>
        exact ⟨[], c.1, cs.map Prod.fst, [], rfl, (congrArg Sig.base hsig).trans (by simp), List.nil_prefix⟩
    | ok rs =>
      dsimp only
      have hno : rs.map Prod.fst = cands.map Prod.fst := by
        have hok := parCollect_ok hrs
        have : ∀ (cs : List (Nat × Pt n × F64)) (rs : List (Nat × F64 × Sol n × Nat)),
            cs.map (Act.solveTask env m.opt) = rs.map (Except.ok (ε := Err)) →
            rs.map Prod.fst = cs.map Prod.fst := by
          intro cs
          induction cs with
          | nil =>
            intro rs h
            cases rs with
            | nil => rfl
            | cons r rs => cases h
          | cons c cs ih =>
            intro rs h
            cases rs with
            | nil => cases h
            | cons r rs =>
              rw [List.map_cons, List.map_cons] at h
              injection h with h1 h2
              rw [List.map_cons, List.map_cons, ih rs h2]
              congr 1
              unfold Act.solveTask at h1
              split at h1
              · cases h1
              · cases h1; rfl
        exact this cands rs hok
      have := row_all (s := m.sig) (g := callMarks m.sig.key) (num := Prod.fst)
        (f := fun r : Nat × F64 × Sol n × Nat => Act.resultPar env r.1 r.2.1 r.2.2.1 r.2.2.2) rs
        (fun x _ m' hk => by rw [← hk]; exact result_fin hp _ _ _ _ _)
        { m with trace := m.trace ++ cands.map (Act.solveEvent env m.opt) } (by rw [hsig])
      rw [hsig, hno] at this
      have hg : (fun i => if (cands.map Prod.fst).length = 1 then loneMarks m.sig.key i
          else callMarks m.sig.key i) = callMarks m.sig.key := by
        funext i
        rw [if_neg (by rw [List.length_map]; omega)]
      rw [hg]
      exact this
  · rw [if_neg (by simpa using h2)]
    have hg : RowP m.sig (loneMarks m.sig.key) (cands.map Prod.fst)
        (Act.all (cands.map fun c => Act.singlePar env c.1 c.2.1 c.2.2) m) :=
      row_all (s := m.sig) (g := loneMarks m.sig.key) (num := Prod.fst)
        (f := fun c : Nat × Pt n × F64 => Act.singlePar env c.1 c.2.1 c.2.2) cands
        (fun x _ m' hk => by rw [← hk]; exact single_fin hp _ _ _ _) m rfl
    cases hc : cands with
    | nil =>
      rw [hc] at hg
      have := hg
      refine ⟨fun h => ?_, (fun h => by cases h), (fun _ h => by cases h)⟩
      have := hg.cont h
      simpa using this
    | cons c cs =>
      cases cs with
      | nil => rw [hc] at hg; exact hg
      | cons d ds => rw [hc] at h2; simp at h2

theorem RowP.ext {s : Sig} {g : Nat → List Mark} {l : List Nat} {r : M n × Out} (h : RowP s g l r)
    (hg : ∀ i j, Mark.iteration j ∉ g i) :
    ∃ t, marks r.1.trace = s.base ++ t ∧ ∀ j, Mark.iteration j ∉ t := by
  have hfl : ∀ (l : List Nat) j, Mark.iteration j ∉ l.flatMap (fun i => g i ++ saveMarks s.ck i) := by
    intro l j hj
    rw [List.mem_flatMap] at hj
    obtain ⟨i, _, hj⟩ := hj
    rcases List.mem_append.1 hj with hj | hj
    · exact hg i j hj
    · exact saveMarks_noIter _ _ _ hj
  cases ho : r.2 with
  | cont => exact ⟨_, congrArg Sig.base (h.cont ho), hfl l⟩
  | stop =>
    obtain ⟨d, i, rest, _, b, _⟩ := h.stop ho
    refine ⟨_, congrArg Sig.base b, fun j hj => ?_⟩
    rcases List.mem_append.1 hj with hj | hj
    · exact hfl d j hj
    · exact hg i j hj
  | fail e =>
    obtain ⟨d, i, rest, t, _, b, c⟩ := h.fail e ho
    refine ⟨_, b, fun j hj => ?_⟩
    rcases List.mem_append.1 hj with hj | hj
    · exact hfl d j hj
    · rcases List.mem_append.1 (c.subset hj) with hj | hj
      · exact hg i j hj
      · simp at hj

theorem prefix_snoc {α : Type} {t L : List α} {x : α} (h : t <+: L ++ [x]) : t <+: L ∨ t = L ++ [x] := by
  rcases List.prefix_concat_iff.1 h with h | h
  · exact Or.inr h
  · exact Or.inl h

/-- Both rows of a batch, after its candidates were examined. -/
theorem rows_mk {env : Env n} (hp : Polite env) (q : Act n) (hq : Mute q) (hqc : ∀ m, (q m).2 = .cont)
    (hqs : Steps env q) (hqp : ∀ m, (q m).1.opt.par = m.opt.par) (first : Nat) (b : List (Nat × Bool))
    (rej pas : List (Nat × Pt n × F64)) (hr : rej.map Prod.fst = rejectedNos b)
    (ha : pas.map Prod.fst = passedNos b) (m : M n) (s : Sig) (hpar : m.opt.par = true)
    (hm : m.sig = { s with base := s.base ++ b.map fun x => Mark.iteration x.1 }) :
    BatchP s b ((q ;; Act.all (rej.map fun c => Act.quickPar env c.1) ;; Act.localsPar env first pas) m) ∧
      verdicts ((q ;; Act.all (rej.map fun c => Act.quickPar env c.1) ;;
        Act.localsPar env first pas) m).1.trace = verdicts m.trace := by
  rw [Act.seq_def, if_pos (hqc m)]
  have hv0 : verdicts (q m).1.trace = verdicts m.trace :=
    verdicts_same hqs (t := []) (by rw [List.append_nil]; exact congrArg Sig.base (hq m)) (by simp)
  have hm1 := (hq m).trans hm
  have hpar1 : (q m).1.opt.par = true := (hqp m).trans hpar
  rw [← hv0]
  generalize (q m).1 = m1 at hm1 hpar1 ⊢
  clear hv0 hm hpar
  have hrow := row_all (s := m1.sig) (g := callMarks m1.sig.key) (num := Prod.fst)
    (f := fun c : Nat × Pt n × F64 => Act.quickPar env c.1) rej
    (fun x _ m' hk => by rw [← hk]; exact (quick_fin hp _ m').1) m1 rfl
  have hns := all_nostop (l := rej.map fun c => Act.quickPar env c.1) (by
    intro a ha m
    rw [List.mem_map] at ha
    obtain ⟨c, _, rfl⟩ := ha
    exact (quick_fin hp c.1 m).2) m1
  have hst1 : Steps env (Act.all (rej.map fun c => Act.quickPar env c.1)) := Steps.all (by
    intro a ha
    rw [List.mem_map] at ha
    obtain ⟨c, _, rfl⟩ := ha
    exact Steps.quickPar env c.1)
  obtain ⟨t1, x1, y1⟩ := hrow.ext (callMarks_noIter _)
  have hv1 := verdicts_same hst1 (m := m1) x1 y1
  rw [hr] at hrow
  rw [Act.seq_def]
  split
  · rename_i hc
    have e2 := hrow.cont hc
    have hpar2 : (Act.all (rej.map fun c => Act.quickPar env c.1) m1).1.opt.par = true :=
      (Reach.cfg (hst1 m1)).par.trans hpar1
    rw [← hv1]
    generalize (Act.all (rej.map fun c => Act.quickPar env c.1) m1).1 = m2 at e2 hpar2 ⊢
    have hl := row_locals hp first pas m2 hpar2
    obtain ⟨t2, x2, y2⟩ := hl.ext (fun i j => by
      split
      · exact loneMarks_noIter _ _ _
      · exact callMarks_noIter _ _ _)
    refine ⟨?_, verdicts_same (Steps.localsPar env first pas) x2 y2⟩
    rw [ha] at hl
    rw [hm1] at e2
    dsimp only at e2
    have hg : (fun i => if (passedNos b).length = 1 then loneMarks m2.sig.key i
        else callMarks m2.sig.key i) = passCall s.key b := by
      funext i
      rw [e2]
      rfl
    rw [hg] at hl
    have k1 : m2.sig.base = s.base ++ batchHead s.key s.ck b [] := by
      rw [e2]; simp [batchHead]
    have k2 : m2.sig.ck = s.ck := by rw [e2]
    refine ⟨fun hc => ?_, fun hc => ?_, fun e hc => ?_⟩
    · rw [hl.cont hc, e2]
      show (⟨_, _, _, _, _⟩ : Sig) = ⟨_, _, _, _, _⟩
      congr 1
      · simp [batchMarks, batchHead]
      · dsimp only
        unfold workOrder
        rw [List.getLast?_append]
        cases (passedNos b).getLast? <;> simp
    · obtain ⟨d, i, rest, a1, a2, a3⟩ := hl.stop hc
      refine ⟨d, i, rest, a1, ?_, a3⟩
      rw [a2, e2]
      simp [batchHead]
    · obtain ⟨d, i, rest, t, a1, a2, a3⟩ := hl.fail e hc
      have hpre : ∀ u, u <+: passCall s.key b i → batchHead s.key s.ck b d ++ u <+:
          batchMarks s.key s.ck b := by
        rintro u ⟨w, hw⟩
        unfold batchMarks
        rw [a1]
        refine ⟨w ++ (saveMarks s.ck i ++ rest.flatMap fun i => passCall s.key b i ++ saveMarks s.ck i), ?_⟩
        simp [batchHead, ← hw]
      have hbase : ∀ u, m2.sig.base ++ (d.flatMap (fun i => passCall s.key b i ++ saveMarks m2.sig.ck i) ++ u)
          = s.base ++ (batchHead s.key s.ck b d ++ u) := by
        intro u
        rw [k1, k2]
        simp [batchHead]
      rcases prefix_snoc a3 with h | h
      · exact ⟨_, [], by rw [a2, hbase, List.append_nil], hpre t h, Or.inl rfl⟩
      · refine ⟨_, [.failed i], ?_, hpre _ List.prefix_rfl, Or.inr ⟨i, rfl⟩⟩
        rw [a2, hbase, h]
        simp
  · rename_i hc
    refine ⟨⟨fun h => absurd h hc, fun h => absurd h hns, fun e he => ?_⟩, hv1⟩
    obtain ⟨d, i, rest, t, a1, a2, a3⟩ := hrow.fail e he
    rw [hm1] at a2 a3
    have hpre : ∀ u, u <+: callMarks s.key i → b.map (fun x => Mark.iteration x.1) ++
        (d.flatMap (fun i => callMarks s.key i ++ saveMarks s.ck i) ++ u) <+: batchMarks s.key s.ck b := by
      rintro u ⟨w, hw⟩
      unfold batchMarks batchHead
      rw [a1]
      refine ⟨w ++ (saveMarks s.ck i ++ (rest.flatMap (fun i => callMarks s.key i ++ saveMarks s.ck i) ++
        (passedNos b).flatMap fun i => passCall s.key b i ++ saveMarks s.ck i)), ?_⟩
      simp [← hw]
    rcases prefix_snoc a3 with h | h
    · exact ⟨_, [], by rw [a2]; simp, hpre t h, Or.inl rfl⟩
    · refine ⟨_, [.failed i], ?_, hpre _ List.prefix_rfl, Or.inr ⟨i, rfl⟩⟩
      rw [a2, h]
      simp

theorem evalTask_nums {o : Opt n} {objs : Option (List F64)} {its : List (Nat × Pt n)}
    {vals : List (Nat × Pt n × F64)}
    (h : its.map (Act.evalTask o objs) = vals.map (Except.ok (ε := Err))) :
    vals.map Prod.fst = its.map Prod.fst := by
  induction its generalizing vals with
  | nil =>
    cases vals with
    | nil => rfl
    | cons r rs => cases h
  | cons it its ih =>
    cases vals with
    | nil => cases h
    | cons r rs =>
      rw [List.map_cons, List.map_cons] at h
      injection h with h1 h2
      rw [List.map_cons, List.map_cons, ih h2]
      congr 1
      unfold Act.evalTask at h1
      cases hmv : Act.meritValue o objs it.1 it.2 with
      | error e => rw [hmv] at h1; cases h1
      | ok v => rw [hmv] at h1; cases h1; rfl

theorem examine_marks (g : Nat × Pt n × F64 → Bool) (vals : List (Nat × Pt n × F64)) :
    marks (vals.map fun c => Event.examine c.1 c.2.1 c.2.2 (g c)) =
        (vals.map fun c => (c.1, g c)).map (fun x => Mark.iteration x.1) ∧
      verdicts (vals.map fun c => Event.examine c.1 c.2.1 c.2.2 (g c)) = vals.map fun c => (c.1, g c) := by
  induction vals with
  | nil => exact ⟨rfl, rfl⟩
  | cons c cs ih =>
    simp only [List.map_cons]
    rw [← ih.1]
    constructor
    · rfl
    · conv_rhs => rw [← ih.2]
      rfl

theorem batchPar_mk {env : Env n} (hp : Polite env) (objs : Option (List F64)) (its : List (Nat × Pt n))
    (m : M n) (hpar : m.opt.par = true) :
    ∃ b, BatchP m.sig b (Act.batchParItems env objs its m) ∧
      verdicts (Act.batchParItems env objs its m).1.trace = verdicts m.trace ++ b ∧
      (b.map Prod.fst = its.map Prod.fst ∨
        b = [] ∧ ∃ e, (Act.batchParItems env objs its m).2 = .fail e) := by
  cases its with
  | nil =>
    refine ⟨[], ⟨fun _ => ?_, (fun hc => by cases hc), (fun _ hc => by cases hc)⟩, ?_, Or.inl rfl⟩
    · simp [Act.batchParItems, Act.skip, batchMarks, batchHead, rejectedNos, passedNos, workOrder]
    · simp [Act.batchParItems, Act.skip]
  | cons it0 its =>
    unfold Act.batchParItems
    have hlog : (Act.logEvals objs (it0 :: its) m).sig = m.sig ∧
        verdicts (Act.logEvals objs (it0 :: its) m).trace = verdicts m.trace ∧
        (Act.logEvals objs (it0 :: its) m).opt = m.opt := by
      unfold Act.logEvals
      split
      · have h1 : marks ((it0 :: its).map fun it => (Event.evaluate it.1 it.2 : Event n)) = [] := by
          unfold marks
          rw [List.filterMap_eq_nil_iff]
          intro e he
          rw [List.mem_map] at he
          obtain ⟨_, _, rfl⟩ := he
          rfl
        refine ⟨?_, ?_, rfl⟩
        · dsimp only [M.sig]
          rw [marks_append, h1, List.append_nil]
        · dsimp only
          rw [verdicts_append]
          have h2 := verdicts_nil (t := (it0 :: its).map fun it => (Event.evaluate it.1 it.2 : Event n))
            (by rw [h1]; simp)
          rw [h2, List.append_nil]
      · exact ⟨rfl, rfl, rfl⟩
    obtain ⟨l1, l2, l3⟩ := hlog
    cases hv : Act.parCollect (Act.evalTask m.opt objs) (it0 :: its) (env.evalOrder it0.1) with
    | error e =>
      dsimp only
      rw [hv]
      refine ⟨[], ⟨(fun hc => by cases hc), (fun hc => by cases hc), fun _ _ => ?_⟩, ?_, Or.inr ⟨rfl, e, rfl⟩⟩
      · exact ⟨[], [], (congrArg Sig.base l1).trans (by simp), List.nil_prefix, Or.inl rfl⟩
      · dsimp only; rw [l2, List.append_nil]
    | ok vals =>
      dsimp only
      rw [hv]
      dsimp only
      have hnum := evalTask_nums (parCollect_ok hv)
      generalize hm1 : Act.logEvals objs (it0 :: its) m = m1 at l1 l2 l3 ⊢
      unfold Act.afterEval
      obtain ⟨hexm, hexv⟩ := examine_marks (n := n) (Act.passes m1.opt) vals
      have hfil : ∀ f : Bool → Bool, ((vals.filter fun c => f (Act.passes m1.opt c)).map Prod.fst) =
          ((vals.map fun c => (c.1, Act.passes m1.opt c)).filter fun x => f x.2).map Prod.fst := by
        intro f
        rw [List.filter_map, List.map_map]
        rfl
      obtain ⟨r1, r2⟩ := rows_mk hp
        (if objs.isNone = true then Act.obsEvals (n := n) vals.length else Act.skip)
        (by split; exacts [Mute.obsEvals _, Mute.skip]) (by intro m; split <;> rfl)
        (by split; exacts [Steps.obsEvals env _, Steps.skip env]) (by intro m; split <;> rfl) it0.1
        (vals.map fun c : Nat × Pt n × F64 => (c.1, Act.passes m1.opt c))
        (vals.filter fun c => !Act.passes m1.opt c) (vals.filter (Act.passes m1.opt))
        (hfil fun b => !b) (hfil fun b => b)
        { m1 with trace := m1.trace ++ (vals.map fun c =>
          Event.examine c.1 c.2.1 c.2.2 (Act.passes m1.opt c)) } m.sig (by rw [← hpar, ← l3]) (by
            rw [← l1]
            dsimp only [M.sig]
            rw [marks_append, hexm])
      refine ⟨_, r1, ?_, Or.inl ?_⟩
      · rw [r2]
        dsimp only
        rw [verdicts_append, l2, hexv]
      · rw [List.map_map]
        exact hnum

/-- Numbers of the candidates of each batch. -/
def nums {α : Type} (bs : List (List (Nat × α))) : List (List Nat) := bs.map fun b => b.map Prod.fst

/-- Where a run of batches ends: after a whole batch, or in the middle of one at the target. -/
def EndsP (s : Sig) (bs : List (List (Nat × Bool))) (m : M n) : Prop :=
  m.sig = { s with
      base := s.base ++ bs.flatMap (batchMarks s.key s.ck)
      cur := (bs.flatMap workOrder).getLast?.getD s.cur } ∨
    ∃ bs' b d i rest, bs = bs' ++ [b] ∧ passedNos b = d ++ i :: rest ∧ m.sig = { s with
      base := s.base ++ (bs'.flatMap (batchMarks s.key s.ck) ++
        (batchHead s.key s.ck b d ++ passCall s.key b i))
      cur := i } ∧ m.opt.targetReached = true

/-- Marks of the loop over parallel batches. -/
structure LoopP (s : Sig) (v0 : List (Nat × Bool)) (bs0 : List (List Nat)) (r : M n × Out) : Prop where
  nostop : r.2 ≠ .stop
  cont : r.2 = .cont → ∃ bs, verdicts r.1.trace = v0 ++ bs.flatten ∧ nums bs <+: bs0 ∧ EndsP s bs r.1
  fail : ∀ e, r.2 = .fail e → ∃ bs u t, verdicts r.1.trace = v0 ++ bs.flatten ∧ nums bs <+: bs0 ∧
    marks r.1.trace = s.base ++ (u ++ t) ∧ u <+: bs.flatMap (batchMarks s.key s.ck) ∧
    (t = [] ∨ ∃ i, t = [.failed i])

theorem EndsP.nil (m : M n) : EndsP m.sig [] m := Or.inl (by simp)

theorem EndsP.cons {s s' : Sig} {b : List (Nat × Bool)} {bs : List (List (Nat × Bool))} {m : M n}
    (hs : s' = { s with
      base := s.base ++ batchMarks s.key s.ck b
      cur := (workOrder b).getLast?.getD s.cur }) (h : EndsP s' bs m) : EndsP s (b :: bs) m := by
  subst hs
  rcases h with h | ⟨bs', b', d, i, rest, h1, h2, h3, h4⟩
  · left
    rw [h]
    show (⟨_, _, _, _, _⟩ : Sig) = ⟨_, _, _, _, _⟩
    congr 1
    · simp
    · dsimp only
      rw [List.flatMap_cons, List.getLast?_append]
      cases (bs.flatMap workOrder).getLast? <;> simp
  · right
    refine ⟨b :: bs', b', d, i, rest, by rw [h1]; rfl, h2, ?_, h4⟩
    rw [h3]
    simp

theorem loop_par {env : Env n} (hp : Polite env) (r : Bool) (st : Nat) (objs : Option (List F64))
    (eff : Nat) (heff : 1 < eff) (bs0 : List (List (Nat × Pt n)))
    (hs : ∀ it ∈ bs0.flatten, (r && decide (it.1 < st)) = false) (k : Nat) (m : M n)
    (hpar : m.opt.par = true) :
    LoopP m.sig (verdicts m.trace) (nums bs0) (Act.loop env r st objs eff k bs0 m) := by
  induction bs0 generalizing m k with
  | nil =>
    exact ⟨(fun hc => by cases hc), fun _ => ⟨[], by simp [Act.loop, Act.skip], List.nil_prefix, EndsP.nil m⟩,
      (fun _ hc => by cases hc)⟩
  | cons b0 bs0 ih =>
    rw [Act.loop]
    dsimp only
    split
    · exact ⟨(fun hc => by cases hc), fun _ => ⟨[], by simp, List.nil_prefix, EndsP.nil m⟩,
        (fun _ hc => by cases hc)⟩
    · have hb : Act.procBatch env r st objs eff b0 = Act.batchParItems env objs b0 := by
        unfold Act.procBatch Act.batchPar
        rw [if_pos heff]
        cases r with
        | false => rfl
        | true =>
          rw [if_pos rfl]
          congr 1
          rw [List.filter_eq_self]
          intro it hit
          have := hs it (by simp [hit])
          simpa using this
      have hcfg := Reach.cfg (Steps.procBatch env r st objs eff b0 m)
      rw [hb] at hcfg ⊢
      obtain ⟨b, h1, h2, h3⟩ := batchPar_mk hp objs b0 m hpar
      have hnum : (∃ e, (Act.batchParItems env objs b0 m).2 = .fail e) ∨ b.map Prod.fst = b0.map Prod.fst :=
        h3.elim Or.inr fun h => Or.inl h.2
      generalize Act.batchParItems env objs b0 m = q at h1 h2 h3 hcfg hnum ⊢
      obtain ⟨m', o⟩ := q
      have hone : ∀ bs, b.map Prod.fst = b0.map Prod.fst → nums bs <+: nums bs0 →
          nums (b :: bs) <+: nums (b0 :: bs0) := by
        rintro bs h ⟨w, hw⟩
        refine ⟨w, ?_⟩
        unfold nums at hw ⊢
        rw [List.map_cons, List.map_cons, ← hw, h]
        rfl
      cases o with
      | fail e =>
        dsimp only
        refine ⟨(fun hc => by cases hc), (fun hc => by cases hc), fun e' _ => ?_⟩
        obtain ⟨u, t, a1, a2, a3⟩ := h1.fail e rfl
        rcases h3 with h3 | ⟨rfl, _⟩
        · exact ⟨[b], u, t, by simpa using h2, hone [] h3 List.nil_prefix, a1, by simpa using a2, a3⟩
        · refine ⟨[], u, t, by simpa using h2, List.nil_prefix, a1, ?_, a3⟩
          simpa [batchMarks, batchHead, rejectedNos, passedNos] using a2
      | stop =>
        dsimp only
        rcases hnum with ⟨e, hc⟩ | hnum
        · cases hc
        obtain ⟨d, i, rest, a1, a2, a3⟩ := h1.stop rfl
        dsimp only at a3
        rw [if_pos a3]
        refine ⟨(fun hc => by cases hc), fun _ => ⟨[b], by simpa using h2, hone [] hnum List.nil_prefix, ?_⟩,
          (fun _ hc => by cases hc)⟩
        exact Or.inr ⟨[], b, d, i, rest, rfl, a1, by simpa using a2, a3⟩
      | cont =>
        dsimp only
        rcases hnum with ⟨e, hc⟩ | hnum
        · cases hc
        have a1 := h1.cont rfl
        dsimp only at a1 h2
        split
        · exact ⟨(fun hc => by cases hc), fun _ => ⟨[b], by simpa using h2, hone [] hnum List.nil_prefix,
            EndsP.cons a1 (EndsP.nil m')⟩, (fun _ hc => by cases hc)⟩
        · have i1 := ih (fun it hit => hs it (by
            rw [List.flatten_cons]; exact List.mem_append_right _ hit)) (k + 1) m' (hcfg.par.trans hpar)
          refine ⟨i1.nostop, fun hc => ?_, fun e he => ?_⟩
          · obtain ⟨bs, b1, b2, b3⟩ := i1.cont hc
            exact ⟨b :: bs, by rw [b1, h2]; simp, hone bs hnum b2, EndsP.cons a1 b3⟩
          · obtain ⟨bs, u, t, b1, b2, b3, b4, b5⟩ := i1.fail e he
            refine ⟨b :: bs, batchMarks m.sig.key m.sig.ck b ++ u, t, by rw [b1, h2]; simp, hone bs hnum b2,
              ?_, ?_, b5⟩
            · rw [b3, a1]; simp
            · rw [a1] at b4
              rw [List.flatMap_cons]
              exact (List.prefix_append_right_inj _).2 b4

/-- Marks of stage 2 with parallel batches. -/
structure Stage2P (s : Sig) (v0 : List (Nat × Bool)) (bs0 : List (List Nat)) (r : M n × Out) : Prop where
  nostop : r.2 ≠ .stop
  cont : r.2 = .cont → ∃ bs, verdicts r.1.trace = v0 ++ bs.flatten ∧ nums bs <+: bs0 ∧
    (marks r.1.trace = s.base ++ (bs.flatMap (batchMarks s.key s.ck) ++
        finalMarks s.ck ((bs.flatMap workOrder).getLast?.getD s.cur)) ∨
      ∃ bs' b d i rest, bs = bs' ++ [b] ∧ passedNos b = d ++ i :: rest ∧ marks r.1.trace =
        s.base ++ (bs'.flatMap (batchMarks s.key s.ck) ++ (batchHead s.key s.ck b d ++ passCall s.key b i) ++
          finalMarks s.ck i) ∧ r.1.opt.targetReached = true)
  fail : ∀ e, r.2 = .fail e → ∃ bs u t, verdicts r.1.trace = v0 ++ bs.flatten ∧ nums bs <+: bs0 ∧
    marks r.1.trace = s.base ++ (u ++ t) ∧ u <+: bs.flatMap (batchMarks s.key s.ck) ∧
    (t = [] ∨ ∃ i, t = [.failed i])
  last : r.2 = .cont → s.ck.isSome = true → ∃ pre it c, r.1.trace = pre ++ [.saved it c]

theorem effBatch_par {o : Opt n} {t st : Nat} (h : 1 < o.effBatch t st) : o.par = true := by
  unfold Opt.effBatch at h
  cases hp : o.par with
  | true => rfl
  | false => rw [hp] at h; simp at h

theorem batch_prefix (key : Option (Option Nat × Nat)) (ck : Option CkptConfig) {b : List (Nat × Bool)}
    {d rest : List Nat} {i : Nat} (h : passedNos b = d ++ i :: rest) :
    batchHead key ck b d ++ passCall key b i <+: batchMarks key ck b := by
  unfold batchMarks
  rw [h]
  refine ⟨saveMarks ck i ++ rest.flatMap fun i => passCall key b i ++ saveMarks ck i, ?_⟩
  simp [batchHead]

theorem stage2_par {env : Env n} (hp : Polite env) (r : Bool) (st : Nat) (ref : List (Pt n))
    (objs : Option (List F64)) (m : M n) (heff : 1 < m.opt.effBatch env.threads st) :
    Stage2P m.sig (verdicts m.trace) (nums (chunks (m.opt.effBatch env.threads st)
      (Act.items m.opt.params.iterations st ref))) (Act.stage2Main env r st ref objs m) := by
  unfold Act.stage2Main
  rw [if_neg (by omega)]
  have hfl := chunks_flatten (m.opt.effBatch env.threads st) (by omega)
    (Act.items m.opt.params.iterations st ref)
  have hl := loop_par hp r st objs (m.opt.effBatch env.threads st) heff
    (chunks (m.opt.effBatch env.threads st) (Act.items m.opt.params.iterations st ref))
    (by
      rw [hfl]
      intro it hit
      have := (items_mem hit).1
      simp only [Bool.and_eq_false_iff, decide_eq_false_iff_not]
      right; omega) 0 m (effBatch_par heff)
  rw [Act.seq_def]
  generalize Act.loop env r st objs (m.opt.effBatch env.threads st) 0
    (chunks (m.opt.effBatch env.threads st) (Act.items m.opt.params.iterations st ref)) m = q at hl ⊢
  generalize nums (chunks (m.opt.effBatch env.threads st) (Act.items m.opt.params.iterations st ref)) = bs0 at hl ⊢
  obtain ⟨m', o⟩ := q
  cases o with
  | stop => exact absurd rfl hl.nostop
  | fail e =>
    rw [if_neg (fun hc => by cases hc)]
    exact ⟨(fun hc => by cases hc), (fun hc => by cases hc), fun e' _ => hl.fail e rfl, (fun hc => by cases hc)⟩
  | cont =>
    rw [if_pos rfl]
    obtain ⟨f1, f2, f3, f4, f5⟩ := finalSave_mk (env := env) m'
    obtain ⟨bs, c1, c2, c3⟩ := hl.cont rfl
    have hst : Steps env (Act.obsEnd2 env ;; Act.saveFinal env) := Steps.seq Steps.obs (Steps.saveFinal env)
    have hv : verdicts ((Act.obsEnd2 env ;; Act.saveFinal env) m').1.trace = verdicts m'.trace := by
      cases ho : ((Act.obsEnd2 env ;; Act.saveFinal env) m').2 with
      | cont => exact verdicts_same hst (f2 ho) (by
          intro i; unfold finalMarks; split <;> simp)
      | fail e => exact verdicts_same hst (f3 e ho) (by simp)
      | stop => exact absurd ho f1
    have hck : m'.sig.ck = m.sig.ck := by
      rcases c3 with h | ⟨_, _, _, _, _, _, _, h, _⟩ <;> rw [h]
    refine ⟨f1, fun hc => ⟨bs, hv.trans c1, c2, ?_⟩, fun e he => ?_, fun hc hk => f5 hc (by rw [hck]; exact hk)⟩
    · rcases c3 with h | ⟨bs', b, d, i, rest, h1, h2, h3, h4⟩
      · left
        rw [f2 hc, h]; simp
      · right
        refine ⟨bs', b, d, i, rest, h1, h2, ?_, f4.trans h4⟩
        rw [f2 hc, h3]; simp
    · rcases c3 with h | ⟨bs', b, d, i, rest, h1, h2, h3, h4⟩
      · exact ⟨bs, _, _, hv.trans c1, c2, by rw [f3 e he, h]; exact List.append_assoc .., List.prefix_rfl,
          Or.inr ⟨_, rfl⟩⟩
      · refine ⟨bs, _, _, hv.trans c1, c2, by rw [f3 e he, h3]; exact List.append_assoc .., ?_, Or.inr ⟨_, rfl⟩⟩
        rw [h1, List.flatMap_append, List.flatMap_singleton]
        exact (List.prefix_append_right_inj _).2 (batch_prefix _ _ h2)

/-- Parallel stage 2 from `st` on, or nothing at all. -/
def RunP (s : Sig) (eff st : Nat) (r : M n × Out) : Prop :=
  (marks r.1.trace = s.base ∧ verdicts r.1.trace = [] ∧ r.2 ≠ .cont) ∨
    ∃ ref : List (Pt n), Stage2P s [] (nums (chunks eff (Act.items s.cfg.1.iterations st ref))) r

theorem RunP.seq {env : Env n} {a b : Act n} {m : M n} {s : Sig} {eff st : Nat} (ha : Mute a)
    (hst : Steps env a) (hb : ∀ m', m'.sig = m.sig → verdicts m'.trace = [] → RunP s eff st (b m'))
    (hs : m.sig = s) (hv : verdicts m.trace = []) : RunP s eff st ((a ;; b) m) := by
  have hv' : verdicts (a m).1.trace = [] :=
    (verdicts_same hst (t := []) (by rw [List.append_nil]; exact congrArg Sig.base (ha m)) (by simp)).trans hv
  rw [Act.seq_def]
  split
  · exact hb _ (ha m) hv'
  · rename_i hc
    exact Or.inl ⟨(congrArg Sig.base (ha m)).trans (congrArg Sig.base hs), hv', hc⟩

theorem body_fresh_par {env : Env n} (hp : Polite env) (m : M n)
    (heff : 1 < m.opt.effBatch env.threads 0) (hv : verdicts m.trace = []) :
    RunP m.sig (m.opt.effBatch env.threads 0) 0 (Act.body env false m) := by
  unfold Act.body
  rw [if_neg (by simp)]
  unfold Act.stage1
  split
  · exact Or.inl ⟨rfl, hv, fun hc => by cases hc⟩
  · rename_i r _
    dsimp only
    refine RunP.seq (env := env) (Mute.log rfl) (Steps.log rfl rfl) (fun m1 h1 v1 => ?_) rfl hv
    refine RunP.seq (env := env) (by split; exacts [Mute.obsScatter hp r, Mute.skip])
      (by split; exacts [Steps.obsScatter env r, Steps.skip env]) (fun m2 h2 v2 => ?_) h1 v1
    refine RunP.seq (env := env) (Mute.obsScatterDone hp _ _) (Steps.obsScatterDone env _ _)
      (fun m3 h3 v3 => ?_) (h2.trans h1) v2
    have e3 := h3.trans (h2.trans h1)
    refine RunP.seq (env := env) (Mute.stage1Local hp _ _) (Steps.stage1Local env _ _)
      (fun m4 h4 v4 => ?_) e3 v3
    have e4 := h4.trans e3
    refine RunP.seq (env := env) (a := fun m => ({ m with uc := 0 }, .cont)) (fun _ => rfl)
      (fun m => Relation.ReflTransGen.single (Prim.uc _ _)) (fun m5 h5 v5 => ?_) e4 v4
    have e5 := h5.trans e4
    unfold Act.stage2
    refine RunP.seq (env := env) (Mute.obsStart2 env) Steps.obs (fun m6 h6 v6 => ?_) e5 v5
    have e6 := h6.trans e5
    rw [if_neg (by simp)]
    split
    · exact Or.inl ⟨congrArg Sig.base e6, v6, fun hc => by cases hc⟩
    · rename_i sd _
      refine RunP.seq (env := env) (Mute.setSeed sd) (Steps.setSeed env sd) (fun m7 h7 v7 => ?_) e6 v6
      have e7 := h7.trans e6
      refine Or.inr ⟨env.rt.shuffle sd (r.ref.map Prod.fst), ?_⟩
      have := stage2_par hp false 0 (env.rt.shuffle sd (r.ref.map Prod.fst))
        (some (r.ref.map Prod.snd)) m7 (by rw [effBatch_sig e7]; exact heff)
      rw [effBatch_sig e7, show m7.opt.params = m7.sig.cfg.1 from rfl, e7, v7] at this
      exact this

theorem body_resumed_par {env : Env n} (hp : Polite env) (m : M n)
    (heff : 1 < m.opt.effBatch env.threads m.opt.curIter) (hv : verdicts m.trace = []) :
    RunP m.sig (m.opt.effBatch env.threads m.opt.curIter) m.opt.curIter (Act.body env true m) ∧
      (Act.body env true m).2 ≠ .stop := by
  unfold Act.body
  rw [if_pos rfl]
  unfold Act.stage2
  have hst : Steps env (Act.obsStart2 (n := n) env) := Steps.obs
  rw [Act.seq_def, show (Act.obsStart2 (n := n) env _).2 = .cont from rfl, if_pos rfl]
  have h1 : (Act.obsStart2 env { m with uc := m.opt.unchanged }).1.sig = m.sig := Mute.obsStart2 env _
  have v1 : verdicts (Act.obsStart2 env { m with uc := m.opt.unchanged }).1.trace = [] := hv
  generalize (Act.obsStart2 env { m with uc := m.opt.unchanged }).1 = m1 at h1 v1 ⊢
  rw [if_pos rfl]
  have hcur : m1.opt.curIter = m.opt.curIter := congrArg Sig.cur h1
  have := stage2_par hp true m1.opt.curIter (m.opt.curRef.getD []) none m1
    (by rw [effBatch_sig h1, hcur]; exact heff)
  rw [hcur, effBatch_sig h1, show m1.opt.params = m1.sig.cfg.1 from rfl, h1, v1] at this
  rw [hcur]
  exact ⟨Or.inr ⟨_, this⟩, this.nostop⟩

end GS
