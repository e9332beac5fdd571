/- Order of iterations, callbacks and checkpoint writes in sequential runs. -/
import Verif.Lemmas.SeqRun

namespace GS
variable {n : Nat}

/-- What happens visibly, in order: an iteration of stage 2 examines its point, the stage-2 callback is
invoked for an iteration, a checkpoint is written under an iteration number, a write fails. -/
inductive Mark where
  | iteration (i : Nat)
  | called (i : Nat)
  | written (i : Nat)
  | failed (i : Nat)
deriving DecidableEq

/-- Invocation stamps from 16 on belong to stage 2. -/
def Event.mark : Event n → Option Mark
  | .examine it _ _ _ => some (.iteration it)
  | .callback k _ _ => if 16 ≤ k then some (.called (k - 16)) else none
  | .saved it _ => some (.written it)
  | .saveFailed it _ => some (.failed it)
  | _ => none

/-- The marks of a trace. -/
def marks (tr : List (Event n)) : List Mark := tr.filterMap Event.mark

theorem marks_append (a b : List (Event n)) : marks (a ++ b) = marks a ++ marks b := by simp [marks]
theorem marks_snoc_none (a : List (Event n)) (e : Event n) (h : e.mark = none) :
    marks (a ++ [e]) = marks a := by simp [marks, h]

/-- User callbacks cannot exchange the callback or its frequency (there are no public methods for it on
`&mut Observer`). -/
def Polite (env : Env n) : Prop :=
  ∀ id k b, (env.cb id k b).callback = b.callback ∧ (env.cb id k b).frequency = b.frequency

/-- Callback and frequency. -/
def Opt.cbKey (o : Opt n) : Option (Option Nat × Nat) := o.obs.map fun b => (b.callback, b.frequency)

/-- The callback of iteration `i`. -/
def callMarks (key : Option (Option Nat × Nat)) (i : Nat) : List Mark :=
  match key with
  | some (some _, f) => if i % f = 0 then [.called i] else []
  | _ => []

/-- The periodic checkpoint after iteration `i`. -/
def saveMarks (ck : Option CkptConfig) (i : Nat) : List Mark :=
  match ck with
  | some cfg => if i % cfg.saveFrequency = 0 then [.written i] else []
  | none => []

/-- The marks of one completed iteration. -/
def block (key : Option (Option Nat × Nat)) (ck : Option CkptConfig) (i : Nat) : List Mark :=
  .iteration i :: (callMarks key i ++ saveMarks ck i)

/-- What the marks depend on. -/
structure Sig where
  base : List Mark
  key : Option (Option Nat × Nat)
  ck : Option CkptConfig
  cur : Nat
  cfg : Params × Bool × Option Nat

def M.sig (m : M n) : Sig := 
  ⟨marks m.trace, m.opt.cbKey, m.opt.ckpt, m.opt.curIter, m.opt.params, m.opt.par, m.opt.batch⟩

/-- An action without marks. -/
def Mute (a : Act n) : Prop := ∀ m, (a m).1.sig = m.sig

theorem Mute.seq {a b : Act n} (ha : Mute a) (hb : Mute b) : Mute (a ;; b) := by
  intro m
  rw [Act.seq_def]
  split
  · exact (hb _).trans (ha m)
  · exact ha m

theorem Mute.skip : Mute (Act.skip (n := n)) := fun _ => rfl

theorem Mute.modify {f : Opt n → Opt n} (h1 : ∀ o, (f o).cbKey = o.cbKey) (h2 : ∀ o, (f o).ckpt = o.ckpt)
    (h3 : ∀ o, (f o).curIter = o.curIter)
    (h4 : ∀ o, ((f o).params, (f o).par, (f o).batch) = (o.params, o.par, o.batch)) :
    Mute (Act.modify f) := by
  intro m
  show (⟨_, _, _, _, _⟩ : Sig) = ⟨_, _, _, _, _⟩
  congr 1
  · exact h1 _
  · exact h2 _
  · exact h3 _
  · exact h4 _

theorem Mute.obs {f : Opt n → Obs n → Obs n}
    (h : ∀ o b, (f o b).callback = b.callback ∧ (f o b).frequency = b.frequency) :
    Mute (Act.modify fun o => o.mapObs (f o)) := by
  refine Mute.modify (fun o => ?_) (fun _ => rfl) (fun _ => rfl) fun _ => rfl
  unfold Opt.cbKey Opt.mapObs
  dsimp only
  rw [Option.map_map]
  cases o.obs with
  | none => rfl
  | some b => simp [h o b]

theorem upd1_key (b : Obs n) (f : Stage1 n → Stage1 n) :
    (b.upd1 f).callback = b.callback ∧ (b.upd1 f).frequency = b.frequency := by
  unfold Obs.upd1; split <;> exact ⟨rfl, rfl⟩
theorem upd2_key (b : Obs n) (f : Stage2 n → Stage2 n) :
    (b.upd2 f).callback = b.callback ∧ (b.upd2 f).frequency = b.frequency := by
  unfold Obs.upd2; split <;> exact ⟨rfl, rfl⟩

theorem Mute.obsIter (i : Nat) : Mute (Act.obsIter (n := n) i) := by
  intro m
  have h : (Act.obsIter i m).1.opt.cbKey = m.opt.cbKey := by
    unfold Act.obsIter Opt.cbKey Opt.mapObs
    dsimp only
    rw [Option.map_map]
    cases m.opt.obs with
    | none => rfl
    | some b => simp [upd2_key]
  show (⟨_, _, _, _, _⟩ : Sig) = ⟨_, _, _, _, _⟩
  congr 1

theorem Mute.obsEvals (i : Nat) : Mute (Act.obsEvals (n := n) i) := Mute.obs fun _ _ => upd2_key _ _
theorem Mute.obsLocal (b : Bool) (k : Nat) : Mute (Act.obsLocal (n := n) b k) :=
  Mute.obs fun _ _ => upd2_key _ _
theorem Mute.setThreshold (v : F64) : Mute (Act.setThreshold (n := n) v) := fun _ => rfl
theorem Mute.stopIfTarget : Mute (Act.stopIfTarget (n := n)) := fun _ => rfl
theorem Mute.setSeed (k : Nat) : Mute (Act.setSeed (n := n) k) := fun _ => rfl
theorem Mute.storeRef (l : List (Pt n)) : Mute (Act.storeRef l) := fun _ => rfl
theorem Mute.log {e : Event n} (h : e.mark = none) : Mute (Act.log e) := by
  intro m
  show (⟨marks (m.trace ++ [e]), _, _, _, _⟩ : Sig) = _
  rw [marks_snoc_none _ _ h]; rfl

theorem Mute.reject (i : Nat) : Mute (Act.reject (n := n) i) := by
  intro m
  unfold Act.reject
  split
  · dsimp only [M.sig]
    rw [marks_snoc_none _ _ rfl]; rfl
  · rfl

theorem Opt.process_sig (o : Opt n) (s : Sol n) : (o.process s).1.cbKey = o.cbKey ∧
    (o.process s).1.ckpt = o.ckpt ∧ (o.process s).1.curIter = o.curIter ∧
    ((o.process s).1.params, (o.process s).1.par, (o.process s).1.batch) = (o.params, o.par, o.batch) := by
  refine ⟨?_, (Opt.process_cfg o s).ckpt, Opt.process_curIter o s, by
    rw [(Opt.process_cfg o s).params, (Opt.process_cfg o s).par, (Opt.process_cfg o s).batch]⟩
  unfold Opt.process
  dsimp only
  split
  · rfl
  · unfold Opt.cbKey Opt.mapObs
    dsimp only
    (repeat' split) <;> (try rw [Option.map_map]) <;> (try rfl) <;> (cases o.obs <;> rfl)

theorem Mute.process {s : Sol n} {k : Verdict → Act n} (hk : ∀ v, Mute (k v)) :
    Mute (Act.process s k) := by
  intro m
  unfold Act.process
  have h := Opt.process_sig m.opt s
  have e : (({ m with opt := (m.opt.process s).1
                      trace := m.trace ++ [.processed s (m.opt.process s).2] } : M n)).sig = m.sig := by
    dsimp only [M.sig]
    rw [marks_snoc_none _ _ rfl, h.1, h.2.1, h.2.2.1, h.2.2.2]
  dsimp only
  split
  · exact e
  · exact (hk _ _).trans e

theorem Mute.search {env : Env n} {ty : SolverType} {cfg : SolverConfig} {it : Option Nat} {p : Pt n}
    {k : Sol n → Nat → Act n} (hk : ∀ s e, Mute (k s e)) : Mute (Act.search env ty cfg it p k) := by
  intro m
  unfold Act.search
  split
  · dsimp only [M.sig]
    rw [marks_snoc_none _ _ rfl]
  · refine (hk _ _ _).trans ?_
    dsimp only [M.sig]
    rw [marks_snoc_none _ _ rfl]

theorem Mute.localSeq (env : Env n) (i : Nat) (p : Pt n) (v : F64) : Mute (Act.localSeq env i p v) := by
  intro m
  exact (Mute.setThreshold v).seq (Mute.search fun s e => Mute.process fun w =>
    (Mute.obsLocal _ _).seq Mute.stopIfTarget) m

theorem invoke_sig {env : Env n} (hp : Polite env) (k : Nat) (m : M n) :
    (Act.invoke env k m).1.opt.cbKey = m.opt.cbKey ∧ (Act.invoke env k m).1.opt.ckpt = m.opt.ckpt ∧
      (Act.invoke env k m).1.opt.curIter = m.opt.curIter ∧
      ((Act.invoke env k m).1.opt.params, (Act.invoke env k m).1.opt.par,
        (Act.invoke env k m).1.opt.batch) = (m.opt.params, m.opt.par, m.opt.batch) ∧
      marks (Act.invoke env k m).1.trace = marks m.trace ++
        (match m.opt.cbKey with
          | some (some _, _) => marks [(.callback k Obs.new (F64.zero, 0) : Event n)]
          | _ => []) := by
  unfold Act.invoke Opt.cbKey
  cases hb : m.opt.obs with
  | none =>
    dsimp only
    rw [hb]
    exact ⟨rfl, rfl, rfl, rfl, by simp⟩
  | some b =>
    dsimp only
    refine ⟨?_, rfl, rfl, rfl, ?_⟩
    · unfold Obs.invoke
      cases hc : b.callback with
      | none => simp [hc]
      | some c => simp [hp c k b, hc]
    · cases hc : b.callback with
      | none => simp [hc]
      | some c => simp [hc, marks_append]; rfl

theorem Mute.invoke {env : Env n} (hp : Polite env) {k : Nat} (hk : k < 16) :
    Mute (Act.invoke env k) := by
  intro m
  obtain ⟨h1, h2, h3, h5, h4⟩ := invoke_sig hp k m
  have : marks [(.callback k Obs.new (F64.zero, 0) : Event n)] = [] := by
    simp [marks, Event.mark]; omega
  rw [this] at h4
  unfold M.sig
  rw [h1, h2, h3, h4, h5]
  split <;> simp

theorem getMerit_cases {objs : Option (List F64)} {it : Nat} {p : Pt n} {k : F64 → Act n} (m : M n) :
    (∃ m1 e, Act.getMerit objs it p k m = (m1, .fail e) ∧ m1.sig = m.sig) ∨
      ∃ v m1, Act.getMerit objs it p k m = k v m1 ∧ m1.sig = m.sig := by
  unfold Act.getMerit
  have e1 : (if objs.isNone = true then { m with trace := m.trace ++ [.evaluate it p] } else m).sig =
      m.sig := by
    split
    · dsimp only [M.sig]; rw [marks_snoc_none _ _ rfl]
    · rfl
  dsimp only
  split
  · exact Or.inl ⟨_, _, rfl, e1⟩
  · rename_i v _
    right
    refine ⟨v, ((if objs.isNone = true then Act.obsEvals 1 else Act.skip)
      (if objs.isNone = true then { m with trace := m.trace ++ [.evaluate it p] } else m)).1, ?_, ?_⟩
    · rw [Act.seq_def]
      cases objs <;> rfl
    · have hm : Mute (if objs.isNone = true then Act.obsEvals (n := n) 1 else Act.skip) := by
        split
        · exact Mute.obsEvals 1
        · exact Mute.skip
      exact (hm _).trans e1

/-- Marks of a step. -/
structure StepMk (s : Sig) (it : Nat) (r : M n × Out) : Prop where
  cont : r.2 = .cont → r.1.sig = { s with base := s.base ++ block s.key s.ck it, cur := it }
  stop : r.2 = .stop → r.1.sig = { s with base := s.base ++ [.iteration it], cur := it } ∧
    r.1.opt.targetReached = true
  fail : ∀ e, r.2 = .fail e → ∃ t, marks r.1.trace = s.base ++ t ∧
    t <+: .iteration it :: (callMarks s.key it ++ [.failed it])

theorem save_mk {env : Env n} {it : Nat} {s : Sig} {m : M n}
    (h : m.sig = { s with base := s.base ++ .iteration it :: callMarks s.key it, cur := it }) :
    StepMk s it (Act.save env m) := by
  have h1 : marks m.trace = s.base ++ .iteration it :: callMarks s.key it := congrArg Sig.base h
  have h2 : m.opt.cbKey = s.key := congrArg Sig.key h
  have h3 : m.opt.ckpt = s.ck := congrArg Sig.ck h
  have h4 : m.opt.curIter = it := congrArg Sig.cur h
  have h5 : (m.opt.params, m.opt.par, m.opt.batch) = s.cfg := congrArg Sig.cfg h
  unfold Act.save
  rw [h3]
  cases hck : s.ck with
  | none =>
    refine ⟨fun _ => ?_, (fun hc => by cases hc), (fun _ hc => by cases hc)⟩
    rw [h, hck]
    simp [block, saveMarks]
  | some cfg =>
    dsimp only
    split
    · refine ⟨(fun hc => by cases hc), (fun hc => by cases hc), fun _ _ => ⟨_, h1, ?_⟩⟩
      exact ⟨[.failed it], by simp⟩
    · rw [h4]
      split
      · rename_i hz
        unfold Act.writeCkpt
        dsimp only
        split
        · refine ⟨(fun hc => by cases hc), (fun hc => by cases hc), fun _ _ => ?_⟩
          refine ⟨.iteration it :: (callMarks s.key it ++ [.failed it]), ?_, List.prefix_rfl⟩
          dsimp only
          rw [marks_append, h1, h4]
          simp [marks, Event.mark]
        · refine ⟨fun _ => ?_, (fun hc => by cases hc), (fun _ hc => by cases hc)⟩
          unfold M.sig
          dsimp only
          rw [marks_append, h1, h2, h3, h4, h5, hck]
          simp [marks, Event.mark, block, saveMarks, hz]
      · rename_i hz
        refine ⟨fun _ => ?_, (fun hc => by cases hc), (fun _ hc => by cases hc)⟩
        rw [h, hck]
        simp [block, saveMarks, hz]

theorem callback_mk {env : Env n} (hp : Polite env) {it : Nat} {s : Sig} {m : M n}
    (h : m.sig = { s with base := s.base ++ [.iteration it], cur := it }) :
    StepMk s it ((Act.callback env it ;; Act.save env) m) := by
  have h1 : marks m.trace = s.base ++ [.iteration it] := congrArg Sig.base h
  have h2 : m.opt.cbKey = s.key := congrArg Sig.key h
  have h3 : m.opt.ckpt = s.ck := congrArg Sig.ck h
  have h4 : m.opt.curIter = it := congrArg Sig.cur h
  have h5 : (m.opt.params, m.opt.par, m.opt.batch) = s.cfg := congrArg Sig.cfg h
  have key : (Act.callback env it m).2 = .cont ∧ (Act.callback env it m).1.sig =
        { s with base := s.base ++ .iteration it :: callMarks s.key it, cur := it } ∨
      (∃ e, (Act.callback env it m).2 = .fail e) ∧ (Act.callback env it m).1 = m := by
    unfold Act.callback
    cases hb : m.opt.obs with
    | none =>
      have : s.key = none := by rw [← h2]; unfold Opt.cbKey; rw [hb]; rfl
      left
      dsimp only
      rw [h, this]
      exact ⟨rfl, rfl⟩
    | some b =>
      have hk : s.key = some (b.callback, b.frequency) := by
        rw [← h2]; unfold Opt.cbKey; rw [hb]; rfl
      dsimp only
      unfold Obs.shouldInvoke
      cases hc : b.callback with
      | none =>
        left
        show Out.cont = _ ∧ m.sig = _
        rw [h, hk, hc]
        exact ⟨rfl, rfl⟩
      | some c =>
        dsimp only [Option.isSome]
        rw [if_pos rfl]
        by_cases hf : b.frequency = 0
        · rw [if_pos hf]
          right; exact ⟨⟨_, rfl⟩, rfl⟩
        · rw [if_neg hf]
          left
          by_cases hz : it % b.frequency = 0
          · rw [show (it % b.frequency == 0) = true from by simpa using hz]
            dsimp only
            refine ⟨invoke_cont env _ m, ?_⟩
            obtain ⟨g1, g2, g3, g5, g4⟩ := invoke_sig hp (16 + it) m
            unfold M.sig
            rw [g1, g2, g3, g4, g5, h1, h2, h3, h4, h5, hk, hc]
            simp [marks, Event.mark, callMarks, hz]
          · rw [show (it % b.frequency == 0) = false from by simpa using hz]
            dsimp only
            refine ⟨rfl, ?_⟩
            rw [h, hk, hc]
            simp [callMarks, hz]
  rw [Act.seq_def]
  rcases key with ⟨k1, k2⟩ | ⟨⟨e, k1⟩, k2⟩
  · rw [if_pos k1]
    exact save_mk k2
  · rw [if_neg (by rw [k1]; exact fun hc => by cases hc)]
    refine ⟨fun hc => ?_, fun hc => ?_, fun _ _ => ⟨[.iteration it], ?_, ?_⟩⟩
    · rw [k1] at hc; cases hc
    · rw [k1] at hc; cases hc
    · rw [k2]; exact h1
    · exact ⟨callMarks s.key it ++ [.failed it], rfl⟩

theorem localSeq_stop {env : Env n} {i : Nat} {p : Pt n} {v : F64} {m : M n}
    (h : (Act.localSeq env i p v m).2 = .stop) : (Act.localSeq env i p v m).1.opt.targetReached = true := by
  unfold Act.localSeq at h ⊢
  rw [Act.seq_def, show (Act.setThreshold (n := n) v m).2 = .cont from rfl, if_pos rfl] at h ⊢
  unfold Act.search at h ⊢
  split at h
  · cases h
  · rename_i s evals he
    unfold Act.process at h ⊢
    dsimp only at h ⊢
    split at h
    · cases h
    · rename_i hv
      rw [if_neg hv]
      rw [Act.seq_def, show (Act.obsLocal (n := n) _ _ _).2 = .cont from rfl, if_pos rfl] at h ⊢
      unfold Act.stopIfTarget at h ⊢
      dsimp only at h ⊢
      by_cases ht : (Act.obsLocal ((Act.setThreshold v m).1.opt.process s).2.returned
          (if (Act.setThreshold v m).1.opt.tracks2 = true then evals else 0)
          { opt := ((Act.setThreshold v m).1.opt.process s).1
            uc := (Act.setThreshold v m).1.uc
            saves := (Act.setThreshold v m).1.saves
            trace := (Act.setThreshold v m).1.trace ++ [Event.search (some i) p (Except.ok s)] ++
              [Event.processed s ((Act.setThreshold v m).1.opt.process s).2] }).1.opt.targetReached = true
      · exact ht
      · rw [if_neg ht] at h; cases h

theorem stepSeq_mk {env : Env n} (hp : Polite env) (r : Bool) (st : Nat) (objs : Option (List F64))
    (it : Nat × Pt n) (hs : (r && decide (it.1 < st)) = false) (m : M n) :
    StepMk m.sig it.1 (Act.stepSeq env r st objs it m) := by
  unfold Act.stepSeq
  rw [hs, if_neg (by simp)]
  have fail0 : ∀ (m1 : M n) (e : Err), marks m1.trace = marks m.trace →
      StepMk m.sig it.1 (m1, .fail e) := fun m1 e h =>
    ⟨(fun hc => by cases hc), (fun hc => by cases hc), fun _ _ => ⟨[], by rw [h]; simp [M.sig],
      List.nil_prefix⟩⟩
  rw [Act.seq_def]
  cases hu : Opt.iterSeed env m.opt.params.seed it.1 with
  | none =>
    have eb : Act.beginIter env it.1 m = ({ m with opt := { m.opt with
        curIter := it.1
        unchanged := m.uc } }, .fail .panic) := by
      unfold Act.beginIter; dsimp only; rw [hu]
    rw [eb, if_neg (fun hc => by cases hc)]
    exact fail0 _ _ rfl
  | some sd =>
    have eb : Act.beginIter env it.1 m = ({ m with opt := { m.opt with
        curIter := it.1
        unchanged := m.uc
        curSeed := sd } }, .cont) := by
      unfold Act.beginIter; dsimp only; rw [hu]
    rw [eb, if_pos rfl, Act.seq_def, show (Act.obsIter (n := n) it.1 _).2 = .cont from rfl, if_pos rfl]
    have e0 := Mute.obsIter it.1 ({ m with opt := { m.opt with
      curIter := it.1
      unchanged := m.uc
      curSeed := sd } } : M n)
    dsimp only at e0 ⊢
    generalize (Act.obsIter it.1 ({ m with opt := { m.opt with
      curIter := it.1
      unchanged := m.uc
      curSeed := sd } } : M n)).1 = m0 at e0 ⊢
    have e0' : m0.sig = { m.sig with cur := it.1 } := e0
    rcases getMerit_cases (objs := objs) (it := it.1) (p := it.2) (k := fun v => fun m =>
      (Act.log (.examine it.1 it.2 v (m.opt.shouldStart it.2 v)) ;;
       (if m.opt.shouldStart it.2 v then Act.localSeq env it.1 it.2 v else Act.reject it.1) ;;
       Act.callback env it.1 ;; Act.save env) m) m0 with ⟨m1, e, h1, h2⟩ | ⟨v, m1, h1, h2⟩
    · rw [h1]
      exact fail0 _ _ (by have := congrArg Sig.base (h2.trans e0'); exact this)
    · rw [h1]
      have e1 := h2.trans e0'
      rw [Act.seq_def, show (Act.log (n := n) _ _).2 = .cont from rfl, if_pos rfl]
      have e2 : (Act.log (.examine it.1 it.2 v (m1.opt.shouldStart it.2 v)) m1).1.sig =
          { m.sig with base := m.sig.base ++ [.iteration it.1], cur := it.1 } := by
        show (⟨marks (m1.trace ++ [_]), _, _, _, _⟩ : Sig) = _
        rw [marks_append]
        have a1 : marks m1.trace = marks m.trace := congrArg Sig.base e1
        have a2 : m1.opt.cbKey = m.opt.cbKey := congrArg Sig.key e1
        have a3 : m1.opt.ckpt = m.opt.ckpt := congrArg Sig.ck e1
        have a4 : m1.opt.curIter = it.1 := congrArg Sig.cur e1
        have a5 : (m1.opt.params, m1.opt.par, m1.opt.batch) = _ := congrArg Sig.cfg e1
        show (⟨_, m1.opt.cbKey, m1.opt.ckpt, m1.opt.curIter, m1.opt.params, m1.opt.par, m1.opt.batch⟩ :
          Sig) = _
        rw [a1, a2, a3, a4, a5]; rfl
      generalize hm2 : (Act.log (.examine it.1 it.2 v (m1.opt.shouldStart it.2 v)) m1).1 = m2 at e2 ⊢
      generalize m1.opt.shouldStart it.2 v = b
      have hmid : Mute (if b = true then Act.localSeq env it.1 it.2 v else Act.reject it.1) := by
        split
        · exact Mute.localSeq env _ _ _
        · exact Mute.reject _
      have hst : ∀ m', ((if b = true then Act.localSeq env it.1 it.2 v else Act.reject it.1) m').2 = .stop →
          ((if b = true then Act.localSeq env it.1 it.2 v else Act.reject it.1) m').1.opt.targetReached =
            true := by
        intro m' hc
        cases b with
        | true => exact localSeq_stop hc
        | false =>
          simp only [Bool.false_eq_true, if_false] at hc
          unfold Act.reject at hc
          split at hc <;> cases hc
      generalize (if b = true then Act.localSeq env it.1 it.2 v else Act.reject it.1) = mid at hmid hst
      have e3 := (hmid m2).trans e2
      rw [Act.seq_def]
      split
      · exact callback_mk hp e3
      · rename_i hnc
        refine ⟨fun hc => absurd hc hnc, fun hc => ⟨e3, ?_⟩, fun _ _ => ⟨_, congrArg Sig.base e3, ?_⟩⟩
        · exact hst m2 hc
        · exact ⟨callMarks m.sig.key it.1 ++ [.failed it.1], rfl⟩

/-- Marks of a list of completed iterations. -/
def blocks (s : Sig) (its : List (Nat × Pt n)) : List Mark :=
  its.flatMap fun it => block s.key s.ck it.1

/-- Iteration number after completing `its`. -/
def lastIter (cur : Nat) (its : List (Nat × Pt n)) : Nat := (its.getLast?.map Prod.fst).getD cur

theorem lastIter_append (cur : Nat) (a b : List (Nat × Pt n)) :
    lastIter (lastIter cur a) b = lastIter cur (a ++ b) := by
  unfold lastIter
  rw [List.getLast?_append]
  cases b.getLast? <;> simp

theorem lastIter_cons (cur : Nat) (a : Nat × Pt n) (b : List (Nat × Pt n)) :
    lastIter a.1 b = lastIter cur (a :: b) := lastIter_append cur [a] b

/-- Marks of the loop over `its`: all iterations of a prefix complete, and possibly one more reaches the
target or fails. -/
structure LoopMk (s : Sig) (its : List (Nat × Pt n)) (r : M n × Out) : Prop where
  cont : r.2 = .cont → ∃ d rest, its = d ++ rest ∧
    r.1.sig = { s with base := s.base ++ blocks s d, cur := lastIter s.cur d }
  stop : r.2 = .stop → ∃ d it rest, its = d ++ it :: rest ∧
    r.1.sig = { s with base := s.base ++ blocks s d ++ [.iteration it.1], cur := it.1 } ∧
    r.1.opt.targetReached = true
  fail : ∀ e, r.2 = .fail e → ∃ d it rest t, its = d ++ it :: rest ∧
    marks r.1.trace = s.base ++ blocks s d ++ t ∧
    t <+: .iteration it.1 :: (callMarks s.key it.1 ++ [.failed it.1])

theorem LoopMk.cons {s s' : Sig} {d0 its : List (Nat × Pt n)} {r : M n × Out}
    (hs : s' = { s with base := s.base ++ blocks s d0, cur := lastIter s.cur d0 }) (h : LoopMk s' its r) :
    LoopMk s (d0 ++ its) r := by
  subst hs
  refine ⟨fun hc => ?_, fun hc => ?_, fun e he => ?_⟩
  · obtain ⟨d, rest, e1, e2⟩ := h.cont hc
    refine ⟨d0 ++ d, rest, by rw [e1, List.append_assoc], ?_⟩
    rw [e2]
    simp only [blocks, List.flatMap_append, List.append_assoc, lastIter_append]
  · obtain ⟨d, it, rest, e1, e2, e3⟩ := h.stop hc
    refine ⟨d0 ++ d, it, rest, by rw [e1, List.append_assoc], ?_, e3⟩
    rw [e2]
    simp only [blocks, List.flatMap_append, List.append_assoc]
  · obtain ⟨d, it, rest, t, e1, e2, e3⟩ := h.fail e he
    refine ⟨d0 ++ d, it, rest, t, by rw [e1, List.append_assoc], ?_, e3⟩
    rw [e2]
    simp only [blocks, List.flatMap_append, List.append_assoc]

theorem batchSeq_mk {env : Env n} (hp : Polite env) (r : Bool) (st : Nat) (objs : Option (List F64))
    (its : List (Nat × Pt n)) (hs : ∀ it ∈ its, (r && decide (it.1 < st)) = false) (m : M n) :
    LoopMk m.sig its (Act.batchSeq env r st objs its m) ∧
      ((Act.batchSeq env r st objs its m).2 = .cont →
        (Act.batchSeq env r st objs its m).1.sig =
          { m.sig with base := m.sig.base ++ blocks m.sig its, cur := lastIter m.sig.cur its }) := by
  induction its generalizing m with
  | nil =>
    have e : m.sig = { m.sig with base := m.sig.base ++ blocks (n := n) m.sig [], cur := lastIter (n := n) m.sig.cur [] } := by
      simp [blocks, lastIter]
    exact ⟨⟨fun _ => ⟨[], [], rfl, e⟩, (fun hc => by cases hc), (fun _ hc => by cases hc)⟩, fun _ => e⟩
  | cons it its ih =>
    have h1 := stepSeq_mk hp r st objs it (hs it (by simp)) m
    unfold Act.batchSeq
    rw [List.map_cons, Act.all, Act.seq_def]
    by_cases hc : (Act.stepSeq env r st objs it m).2 = .cont
    · rw [if_pos hc]
      have e1 := h1.cont hc
      have e1' : (Act.stepSeq env r st objs it m).1.sig = { m.sig with base := m.sig.base ++ blocks m.sig [it], cur := lastIter m.sig.cur [it] } := by
        rw [e1]; simp [blocks, lastIter]
      obtain ⟨i1, i2⟩ := ih (fun x hx => hs x (by simp [hx])) (Act.stepSeq env r st objs it m).1
      refine ⟨LoopMk.cons (d0 := [it]) e1' i1, fun hcc => ?_⟩
      refine (i2 hcc).trans ?_
      rw [e1']
      show (⟨_, _, _, _, _⟩ : Sig) = ⟨_, _, _, _, _⟩
      congr 1
      · simp [blocks]
      · exact lastIter_append _ [it] its
    · rw [if_neg hc]
      refine ⟨⟨fun h => absurd h hc, fun h => ?_, fun e h => ?_⟩, fun h => absurd h hc⟩
      · exact ⟨[], it, its, rfl, by simpa [blocks] using (h1.stop h).1, (h1.stop h).2⟩
      · obtain ⟨t, t1, t2⟩ := h1.fail e h
        exact ⟨[], it, its, t, rfl, by simpa [blocks] using t1, t2⟩

/-- Marks of the loop over the batches. -/
structure AllMk (s : Sig) (its : List (Nat × Pt n)) (r : M n × Out) : Prop where
  nostop : r.2 ≠ .stop
  cont : r.2 = .cont → (∃ d rest, its = d ++ rest ∧
      r.1.sig = { s with base := s.base ++ blocks s d, cur := lastIter s.cur d }) ∨
    ∃ d it rest, its = d ++ it :: rest ∧
      r.1.sig = { s with base := s.base ++ blocks s d ++ [.iteration it.1], cur := it.1 } ∧
      r.1.opt.targetReached = true
  fail : ∀ e, r.2 = .fail e → ∃ d it rest t, its = d ++ it :: rest ∧
    marks r.1.trace = s.base ++ blocks s d ++ t ∧
    t <+: .iteration it.1 :: (callMarks s.key it.1 ++ [.failed it.1])

theorem AllMk.cons {s s' : Sig} {d0 its : List (Nat × Pt n)} {r : M n × Out}
    (hs : s' = { s with base := s.base ++ blocks s d0, cur := lastIter s.cur d0 }) (h : AllMk s' its r) :
    AllMk s (d0 ++ its) r := by
  subst hs
  refine ⟨h.nostop, fun hc => ?_, fun e he => ?_⟩
  · rcases h.cont hc with ⟨d, rest, e1, e2⟩ | ⟨d, it, rest, e1, e2, e3⟩
    · refine Or.inl ⟨d0 ++ d, rest, by rw [e1, List.append_assoc], ?_⟩
      rw [e2]
      simp only [blocks, List.flatMap_append, List.append_assoc, lastIter_append]
    · refine Or.inr ⟨d0 ++ d, it, rest, by rw [e1, List.append_assoc], ?_, e3⟩
      rw [e2]
      simp only [blocks, List.flatMap_append, List.append_assoc]
  · obtain ⟨d, it, rest, t, e1, e2, e3⟩ := h.fail e he
    refine ⟨d0 ++ d, it, rest, t, by rw [e1, List.append_assoc], ?_, e3⟩
    rw [e2]
    simp only [blocks, List.flatMap_append, List.append_assoc]

theorem loop_mk {env : Env n} (hp : Polite env) (r : Bool) (st : Nat) (objs : Option (List F64))
    (eff : Nat) (heff : ¬ 1 < eff) (bs : List (List (Nat × Pt n)))
    (hs : ∀ it ∈ bs.flatten, (r && decide (it.1 < st)) = false) (k : Nat) (m : M n) :
    AllMk m.sig bs.flatten (Act.loop env r st objs eff k bs m) := by
  have e0 : ∀ m : M n, m.sig = { m.sig with
      base := m.sig.base ++ blocks (n := n) m.sig []
      cur := lastIter (n := n) m.sig.cur [] } := fun m => by simp [blocks, lastIter]
  induction bs generalizing m k with
  | nil => exact ⟨(fun hc => by cases hc), fun _ => Or.inl ⟨[], [], rfl, e0 m⟩, (fun _ hc => by cases hc)⟩
  | cons b bs ih =>
    rw [Act.loop]
    dsimp only
    split
    · exact ⟨(fun hc => by cases hc), fun _ => Or.inl ⟨[], _, rfl, e0 m⟩, (fun _ hc => by cases hc)⟩
    · have hb : Act.procBatch env r st objs eff b = Act.batchSeq env r st objs b := by
        unfold Act.procBatch; rw [if_neg heff]
      rw [hb]
      obtain ⟨h1, h2⟩ := batchSeq_mk hp r st objs b (fun it hit => hs it (by simp [hit])) m
      rw [List.flatten_cons]
      generalize Act.batchSeq env r st objs b m = q at h1 h2 ⊢
      obtain ⟨m', o⟩ := q
      cases o with
      | fail e =>
        dsimp only
        refine ⟨(fun hc => by cases hc), (fun hc => by cases hc), fun e' _ => ?_⟩
        obtain ⟨d, it, rest, t, e1, e2, e3⟩ := h1.fail e rfl
        exact ⟨d, it, rest ++ bs.flatten, t, by rw [e1]; simp, e2, e3⟩
      | stop =>
        dsimp only
        obtain ⟨d, it, rest, e1, e2, e3⟩ := h1.stop rfl
        dsimp only at e3
        rw [if_pos e3]
        exact ⟨(fun hc => by cases hc), fun _ => Or.inr ⟨d, it, rest ++ bs.flatten, by rw [e1]; simp, e2, e3⟩,
          (fun _ hc => by cases hc)⟩
      | cont =>
        dsimp only
        split
        · exact ⟨(fun hc => by cases hc), fun _ => Or.inl ⟨b, bs.flatten, rfl, h2 rfl⟩,
            (fun _ hc => by cases hc)⟩
        · exact AllMk.cons (h2 rfl) (ih (fun it hit => hs it (by
            rw [List.flatten_cons]; exact List.mem_append_right _ hit)) (k + 1) m')

/-- The marks after the loop, when a final checkpoint is due. -/
def finalMarks (ck : Option CkptConfig) (i : Nat) : List Mark :=
  match ck with
  | some _ => [.written i]
  | none => []

/-- Marks of stage 2 as a whole. -/
structure Stage2Mk (s : Sig) (its : List (Nat × Pt n)) (r : M n × Out) : Prop where
  nostop : r.2 ≠ .stop
  cont : r.2 = .cont → (∃ d rest, its = d ++ rest ∧ marks r.1.trace =
      s.base ++ blocks s d ++ finalMarks s.ck (lastIter s.cur d)) ∨
    ∃ d it rest, its = d ++ it :: rest ∧ marks r.1.trace =
      s.base ++ blocks s d ++ .iteration it.1 :: finalMarks s.ck it.1 ∧ r.1.opt.targetReached = true
  fail : ∀ e, r.2 = .fail e → marks r.1.trace = s.base ∨ ∃ d rest t, its = d ++ rest ∧
    marks r.1.trace = s.base ++ blocks s d ++ t ∧
    (t = [.failed (lastIter s.cur d)] ∨ ∃ it rest', rest = it :: rest' ∧
      (t <+: .iteration it.1 :: (callMarks s.key it.1 ++ [.failed it.1]) ∨
        t = [.iteration it.1, .failed it.1]))
  last : r.2 = .cont → s.ck.isSome = true → ∃ pre it c, r.1.trace = pre ++ [.saved it c]

theorem Mute.obsEnd2 (env : Env n) : Mute (Act.obsEnd2 env) := Mute.obs fun _ _ => upd2_key _ _

theorem finalSave_mk {env : Env n} (m : M n) :
    ((Act.obsEnd2 env ;; Act.saveFinal env) m).2 ≠ .stop ∧
    (((Act.obsEnd2 env ;; Act.saveFinal env) m).2 = .cont →
      marks ((Act.obsEnd2 env ;; Act.saveFinal env) m).1.trace =
        m.sig.base ++ finalMarks m.sig.ck m.sig.cur) ∧
    (∀ e, ((Act.obsEnd2 env ;; Act.saveFinal env) m).2 = .fail e →
      marks ((Act.obsEnd2 env ;; Act.saveFinal env) m).1.trace = m.sig.base ++ [.failed m.sig.cur]) ∧
    ((Act.obsEnd2 env ;; Act.saveFinal env) m).1.opt.targetReached = m.opt.targetReached ∧
    (((Act.obsEnd2 env ;; Act.saveFinal env) m).2 = .cont → m.sig.ck.isSome = true →
      ∃ pre it c, ((Act.obsEnd2 env ;; Act.saveFinal env) m).1.trace = pre ++ [.saved it c]) := by
  rw [Act.seq_def, show (Act.obsEnd2 (n := n) env m).2 = .cont from rfl, if_pos rfl]
  have h := Mute.obsEnd2 env m
  have ht : (Act.obsEnd2 env m).1.opt.targetReached = m.opt.targetReached := rfl
  generalize (Act.obsEnd2 env m).1 = m1 at h ht ⊢
  rw [← h, ← ht]
  unfold Act.saveFinal
  cases hck : m1.opt.ckpt with
  | none =>
    refine ⟨(fun hc => by cases hc), fun _ => ?_, (fun _ hc => by cases hc), rfl, fun _ hc => ?_⟩
    · simp [M.sig, hck, finalMarks]
    · simp [M.sig, hck] at hc
  | some cfg =>
    dsimp only
    unfold Act.writeCkpt
    dsimp only
    split
    · refine ⟨(fun hc => by cases hc), (fun hc => by cases hc), fun _ _ => ?_, rfl,
        (fun hc => by cases hc)⟩
      dsimp only [M.sig]
      rw [marks_append]
      simp [marks, Event.mark]
    · refine ⟨(fun hc => by cases hc), fun _ => ?_, (fun _ hc => by cases hc), rfl,
        fun _ _ => ⟨_, _, _, rfl⟩⟩
      dsimp only [M.sig]
      rw [marks_append, hck]
      simp [marks, Event.mark, finalMarks]

theorem stage2Main_mk {env : Env n} (hp : Polite env) (r : Bool) (st : Nat) (ref : List (Pt n))
    (objs : Option (List F64)) (m : M n) (heff : ¬ 1 < m.opt.effBatch env.threads st) :
    Stage2Mk m.sig (Act.items m.opt.params.iterations st ref) (Act.stage2Main env r st ref objs m) := by
  unfold Act.stage2Main
  split
  · exact ⟨(fun hc => by cases hc), (fun hc => by cases hc), fun _ _ => Or.inl rfl,
      (fun hc => by cases hc)⟩
  · rename_i h0
    have hfl := chunks_flatten (m.opt.effBatch env.threads st) (by omega)
      (Act.items m.opt.params.iterations st ref)
    have hl := loop_mk hp r st objs (m.opt.effBatch env.threads st) heff
      (chunks (m.opt.effBatch env.threads st) (Act.items m.opt.params.iterations st ref))
      (by
        rw [hfl]
        intro it hit
        have := (items_mem hit).1
        simp only [Bool.and_eq_false_iff, decide_eq_false_iff_not]
        right; omega) 0 m
    rw [hfl] at hl
    rw [Act.seq_def]
    generalize Act.loop env r st objs (m.opt.effBatch env.threads st) 0
      (chunks (m.opt.effBatch env.threads st) (Act.items m.opt.params.iterations st ref)) m = q at hl ⊢
    obtain ⟨m', o⟩ := q
    cases o with
    | stop => exact absurd rfl hl.nostop
    | fail e =>
      rw [if_neg (fun hc => by cases hc)]
      refine ⟨(fun hc => by cases hc), (fun hc => by cases hc), fun e' _ => Or.inr ?_,
        (fun hc => by cases hc)⟩
      obtain ⟨d, it, rest, t, e1, e2, e3⟩ := hl.fail e rfl
      exact ⟨d, it :: rest, t, e1, e2, Or.inr ⟨it, rest, rfl, Or.inl e3⟩⟩
    | cont =>
      rw [if_pos rfl]
      obtain ⟨f1, f2, f3, f4, f5⟩ := finalSave_mk (env := env) m'
      refine ⟨f1, fun hc => ?_, fun e he => ?_, fun hc hk => f5 hc ?_⟩
      · rcases hl.cont rfl with ⟨d, rest, e1, e2⟩ | ⟨d, it, rest, e1, e2, e3⟩
        · exact Or.inl ⟨d, rest, e1, by rw [f2 hc, e2]⟩
        · exact Or.inr ⟨d, it, rest, e1, by rw [f2 hc, e2]; simp, f4.trans e3⟩
      · right
        rcases hl.cont rfl with ⟨d, rest, e1, e2⟩ | ⟨d, it, rest, e1, e2, e3⟩
        · exact ⟨d, rest, _, e1, by rw [f3 e he, e2], Or.inl rfl⟩
        · refine ⟨d, it :: rest, [.iteration it.1, .failed it.1], e1, ?_, ?_⟩
          · rw [f3 e he, e2]; simp
          · exact Or.inr ⟨it, rest, rfl, Or.inr rfl⟩
      · rcases hl.cont rfl with ⟨d, rest, e1, e2⟩ | ⟨d, it, rest, e1, e2, e3⟩
        · rw [e2]; exact hk
        · rw [e2]; exact hk

theorem Mute.obsStart2 (env : Env n) : Mute (Act.obsStart2 env) := Mute.obs fun _ _ => upd2_key _ _

theorem Mute.obsScatter {env : Env n} (hp : Polite env) (r : Scatter.Result n) :
    Mute (Act.obsScatter env r) :=
  ((Mute.obs fun _ _ => upd1_key _ _).seq (Mute.invoke hp (by decide))).seq
    ((Mute.obs fun _ _ => upd1_key _ _).seq ((Mute.invoke hp (by decide)).seq
      ((Mute.obs fun _ _ => upd1_key _ _).seq (Mute.invoke hp (by decide)))))

theorem Mute.obsScatterDone {env : Env n} (hp : Polite env) (ref : List (Pt n)) (objs : List F64) :
    Mute (Act.obsScatterDone env ref objs) :=
  (Mute.obs fun _ _ => upd1_key _ _).seq ((Mute.invoke hp (by decide)).seq
    (Mute.obs fun _ _ => upd1_key _ _))

theorem Mute.obsLocal1 {env : Env n} (hp : Polite env) (s : Sol n) (k : Nat) :
    Mute (Act.obsLocal1 env s k) :=
  (Mute.obs fun _ _ => upd1_key _ _).seq (Mute.invoke hp (by decide))

theorem Mute.obsEnd1 {env : Env n} (hp : Polite env) : Mute (Act.obsEnd1 env) :=
  (Mute.obs fun _ _ => upd1_key _ _).seq ((Mute.invoke hp (by decide)).seq
    (Mute.obs fun _ _ => ⟨rfl, rfl⟩))

theorem Mute.stage1Local {env : Env n} (hp : Polite env) (p : Pt n) (ref : List (Pt n)) :
    Mute (Act.stage1Local env p ref) := by
  intro m
  unfold Act.stage1Local
  split
  · dsimp only [M.sig]; rw [marks_snoc_none _ _ rfl]
  · rename_i s evals _
    refine Eq.trans (((Mute.setThreshold s.objective).seq ((Mute.obsLocal1 hp s
      (if m.opt.tracks1 then evals else 0)).seq (Mute.process fun v => ?_))) _) ?_
    · intro m'
      dsimp only
      split
      · exact ((Mute.obsEnd1 hp).seq (fun _ => rfl)) m'
      · exact ((Mute.storeRef ref).seq (Mute.obsEnd1 hp)) m'
    · dsimp only [M.sig]; rw [marks_snoc_none _ _ rfl]

/-- Stage 2 from `st` on, or nothing at all. -/
def RunMk (s : Sig) (st : Nat) (r : M n × Out) : Prop :=
  (marks r.1.trace = s.base ∧ r.2 ≠ .cont) ∨
    ∃ ref, Stage2Mk s (Act.items s.cfg.1.iterations st ref) r

theorem RunMk.seq {a b : Act n} {m : M n} {s : Sig} {st : Nat} (ha : Mute a)
    (hb : ∀ m', m'.sig = m.sig → RunMk s st (b m')) (hs : m.sig = s) : RunMk s st ((a ;; b) m) := by
  rw [Act.seq_def]
  split
  · exact hb _ (ha m)
  · rename_i hc
    exact Or.inl ⟨(congrArg Sig.base (ha m)).trans (congrArg Sig.base hs), hc⟩

theorem effBatch_sig {m m' : M n} (h : m.sig = m'.sig) (t st : Nat) :
    m.opt.effBatch t st = m'.opt.effBatch t st := by
  have h5 : (m.opt.params, m.opt.par, m.opt.batch) = (m'.opt.params, m'.opt.par, m'.opt.batch) :=
    congrArg Sig.cfg h
  injection h5 with a b
  injection b with b c
  unfold Opt.effBatch
  rw [a, b, c]

theorem body_fresh_mk {env : Env n} (hp : Polite env) (m : M n)
    (heff : ¬ 1 < m.opt.effBatch env.threads 0) : RunMk m.sig 0 (Act.body env false m) := by
  unfold Act.body
  rw [if_neg (by simp)]
  unfold Act.stage1
  split
  · exact Or.inl ⟨rfl, fun hc => by cases hc⟩
  · rename_i r _
    dsimp only
    refine RunMk.seq (Mute.log rfl) (fun m1 h1 => ?_) rfl
    refine RunMk.seq (by split; exacts [Mute.obsScatter hp r, Mute.skip]) (fun m2 h2 => ?_) h1
    refine RunMk.seq (Mute.obsScatterDone hp _ _) (fun m3 h3 => ?_) (h2.trans h1)
    have e3 := h3.trans (h2.trans h1)
    refine RunMk.seq (Mute.stage1Local hp _ _) (fun m4 h4 => ?_) e3
    have e4 := h4.trans e3
    refine RunMk.seq (a := fun m => ({ m with uc := 0 }, .cont)) (fun _ => rfl) (fun m5 h5 => ?_) e4
    have e5 := h5.trans e4
    unfold Act.stage2
    refine RunMk.seq (Mute.obsStart2 env) (fun m6 h6 => ?_) e5
    have e6 := h6.trans e5
    rw [if_neg (by simp)]
    split
    · exact Or.inl ⟨congrArg Sig.base e6, fun hc => by cases hc⟩
    · rename_i sd _
      refine RunMk.seq (Mute.setSeed sd) (fun m7 h7 => ?_) e6
      have e7 := h7.trans e6
      refine Or.inr ⟨env.rt.shuffle sd (r.ref.map Prod.fst), ?_⟩
      have := stage2Main_mk hp false 0 (env.rt.shuffle sd (r.ref.map Prod.fst))
        (some (r.ref.map Prod.snd)) m7 (by rw [effBatch_sig e7]; exact heff)
      rw [show m7.opt.params = m7.sig.cfg.1 from rfl, e7] at this
      exact this

theorem body_resumed_mk {env : Env n} (hp : Polite env) (m : M n)
    (heff : ¬ 1 < m.opt.effBatch env.threads m.opt.curIter) :
    ∃ ref, Stage2Mk m.sig (Act.items m.sig.cfg.1.iterations m.opt.curIter ref) (Act.body env true m) := by
  unfold Act.body
  rw [if_pos rfl]
  unfold Act.stage2
  rw [Act.seq_def, show (Act.obsStart2 (n := n) env _).2 = .cont from rfl, if_pos rfl]
  have h1 : (Act.obsStart2 env { m with uc := m.opt.unchanged }).1.sig = m.sig := Mute.obsStart2 env _
  generalize (Act.obsStart2 env { m with uc := m.opt.unchanged }).1 = m1 at h1 ⊢
  rw [if_pos rfl]
  have hcur : m1.opt.curIter = m.opt.curIter := congrArg Sig.cur h1
  refine ⟨m.opt.curRef.getD [], ?_⟩
  have := stage2Main_mk hp true m1.opt.curIter (m.opt.curRef.getD []) none m1
    (by rw [effBatch_sig h1, hcur]; exact heff)
  rw [show m1.opt.params = m1.sig.cfg.1 from rfl, h1, hcur] at this
  rw [hcur]
  exact this

theorem items_split {iters st : Nat} {ref : List (Pt n)} {d rest : List (Nat × Pt n)}
    (h : Act.items iters st ref = d ++ rest) :
    d.map Prod.fst = List.range' st d.length ∧ ∀ it rest', rest = it :: rest' → it.1 = st + d.length := by
  have h1 := items_iters iters st ref
  rw [h, List.map_append] at h1
  have h2 : (List.range (min iters ref.length)).drop st =
      List.range' st (min iters ref.length - st) := by
    rw [List.range_eq_range', List.drop_range']; simp
  rw [h2] at h1
  have h3 := congrArg List.length h1
  simp only [List.length_append, List.length_map, List.length_range'] at h3
  constructor
  · rw [show min iters ref.length - st = d.length + rest.length from h3.symm,
      show List.range' st (d.length + rest.length) = List.range' st d.length ++
        List.range' (st + d.length) rest.length from by
          rw [← List.range'_append, Nat.one_mul]] at h1
    exact (List.append_inj h1 (by simp)).1
  · rintro it rest' rfl
    have := congrArg (fun l => l[d.length]?) h1
    simp only [List.getElem?_append_right, List.length_map, Nat.le_refl, Nat.sub_self] at this
    rw [List.getElem?_range' (by simp at h3; omega)] at this
    simpa using this

theorem blocks_eq {s : Sig} {st : Nat} {d : List (Nat × Pt n)}
    (h : d.map Prod.fst = List.range' st d.length) :
    blocks s d = (List.range' st d.length).flatMap (block s.key s.ck) := by
  rw [← h, List.flatMap_map]; rfl

theorem lastIter_eq {st : Nat} {d : List (Nat × Pt n)}
    (h : d.map Prod.fst = List.range' st d.length) : lastIter st d = st + (d.length - 1) := by
  unfold lastIter
  rw [← List.getLast?_map, h]
  cases hd : d.length with
  | zero => simp
  | succ k => simp [List.getLast?_range']

/-- Shape of the marks of a run. -/
structure Shape (key : Option (Option Nat × Nat)) (ck : Option CkptConfig) (st : Nat) (r : M n × Out) :
    Prop where
  stop : r.2 = .stop → marks r.1.trace = []
  cont : r.2 = .cont → ∃ k, marks r.1.trace =
      (List.range' st k).flatMap (block key ck) ++ finalMarks ck (st + (k - 1)) ∨
    (r.1.opt.targetReached = true ∧ marks r.1.trace =
      (List.range' st k).flatMap (block key ck) ++ .iteration (st + k) :: finalMarks ck (st + k))
  fail : ∀ e, r.2 = .fail e → ∃ k t, marks r.1.trace =
      (List.range' st k).flatMap (block key ck) ++ t ∧
    (t = [.failed (st + (k - 1))] ∨ t = [.iteration (st + k), .failed (st + k)] ∨
      t <+: .iteration (st + k) :: (callMarks key (st + k) ++ [.failed (st + k)]))
  last : r.2 = .cont → ck.isSome = true → ∃ pre it c, r.1.trace = pre ++ [.saved it c]

theorem RunMk.shape {s : Sig} {r : M n × Out} (hb : s.base = []) (h : RunMk s s.cur r) :
    Shape s.key s.ck s.cur r := by
  rcases h with ⟨h1, h2⟩ | ⟨ref, h⟩
  · rw [hb] at h1
    refine ⟨fun _ => h1, fun hc => absurd hc h2, fun e he => ⟨0, [], by simpa using h1, ?_⟩,
      fun hc => absurd hc h2⟩
    exact Or.inr (Or.inr List.nil_prefix)
  · refine ⟨fun hc => absurd hc h.nostop, fun hc => ?_, fun e he => ?_, h.last⟩
    · rcases h.cont hc with ⟨d, rest, e1, e2⟩ | ⟨d, it, rest, e1, e2, e3⟩
      · obtain ⟨i1, _⟩ := items_split e1
        refine ⟨d.length, Or.inl ?_⟩
        rw [e2, hb, blocks_eq i1, lastIter_eq i1]; rfl
      · obtain ⟨i1, i2⟩ := items_split e1
        refine ⟨d.length, Or.inr ⟨e3, ?_⟩⟩
        rw [e2, hb, blocks_eq i1, i2 it rest rfl]; rfl
    · rcases h.fail e he with h1 | ⟨d, rest, t, e1, e2, e3⟩
      · exact ⟨0, [], by simpa [hb] using h1, Or.inr (Or.inr List.nil_prefix)⟩
      · obtain ⟨i1, i2⟩ := items_split e1
        refine ⟨d.length, t, by rw [e2, hb, blocks_eq i1]; rfl, ?_⟩
        rcases e3 with e3 | ⟨it, rest', rfl, e3⟩
        · rw [lastIter_eq i1] at e3; exact Or.inl e3
        · rw [i2 it rest' rfl] at e3
          rcases e3 with e3 | e3
          · exact Or.inr (Or.inr e3)
          · exact Or.inr (Or.inl e3)

/-- What every written checkpoint contains. -/
def SavedOk (o : Opt n) (tr : List (Event n)) : Prop :=
  ∀ pre it c post, tr = pre ++ .saved it c :: post →
    c.currentIteration = it ∧ c.solutionSet = setFold o.setCfg o.solset (procs pre) ∧
    c.distanceFilterSolutions = o.dist.solutions ++ procs pre ∧ c.params = o.params ∧
    c.targetObjective = o.target ∧ c.excludeOutOfBounds = o.exclude ∧ c.batchIterations = o.batch ∧
    c.enableParallel = o.par ∧ c.absTol = o.absTol ∧ c.relTol = o.relTol

theorem savedOk {env : Env n} {o : Opt n} {u sv : Nat} {m : M n} (hne : o.solset ≠ some [])
    (h : Reach env ⟨o, u, sv, []⟩ m) : SavedOk o m.trace := by
  induction h with
  | refl => intro pre it c post h; simp at h
  | tail hr hp ih =>
    have hh := histInv hne hr
    have snoc : ∀ (tr : List (Event n)) (e : Event n), SavedOk o tr → (∀ it c, e ≠ .saved it c) →
        SavedOk o (tr ++ [e]) := by
      intro tr e h1 h2 pre it c post heq
      rcases snoc_split heq with ⟨_, he⟩ | ⟨post', hp⟩
      · exact absurd he.symm (h2 it c)
      · exact h1 pre it c post' hp
    cases hp
    case opt => exact ih
    case uc => exact ih
    case log m e he _ => exact snoc _ _ ih fun it c hc => by rw [hc] at he; cases he
    case saveFail => exact snoc _ _ ih fun it c hc => by cases hc
    case proc => exact snoc _ _ ih fun it c hc => by cases hc
    case save m _ =>
      intro pre it c post heq
      rcases snoc_split heq with ⟨rfl, he⟩ | ⟨post', hp⟩
      · cases he
        exact ⟨rfl, hh.solset, hh.dist, hh.cfg.params, hh.cfg.target, hh.cfg.exclude, hh.cfg.batch,
          hh.cfg.par, hh.cfg.absTol, hh.cfg.relTol⟩
      · exact ih pre it c post' hp

end GS
