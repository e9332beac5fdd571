/- Lifetimes of a program that checkpoints: the invariant that links the directory with what happened. -/
import Verif.Model.Restart
import Verif.Props.Saves
import Verif.Props.Manager
import Verif.Props.Codec

namespace GS
open Manager Dir GS.Props
variable {n : Nat}

theorem written_append (a b : List (Event n)) : written (a ++ b) = written a ++ written b := by
  simp [written]

/-- Checkpoints that a restart takes into account: with `keep_all` not those of iteration 0. -/
def Manager.counts (m : Manager) (i : Nat) : Bool := !m.keepAll || decide (0 < i)

def Manager.countsE (m : Manager) : Event n → Bool
  | .saved it _ => m.counts it
  | _ => false

/-- The last checkpoint that counts. -/
def Manager.lastIn (m : Manager) (tr : List (Event n)) : Option (Nat × Ckpt n) :=
  ((written tr).filter fun s => m.counts s.1).getLast?

/-- The events up to the last checkpoint that counts. -/
def Manager.upTo (m : Manager) (tr : List (Event n)) : List (Event n) :=
  (tr.reverse.dropWhile fun e => !m.countsE e).reverse

theorem lastIn_append (m : Manager) (a b : List (Event n)) :
    m.lastIn (a ++ b) = (m.lastIn b).or (m.lastIn a) := by
  unfold Manager.lastIn
  rw [written_append, List.filter_append, List.getLast?_append]

/-- Either no checkpoint counts, or the events are cut at the last one. -/
theorem upTo_cases (m : Manager) (tr : List (Event n)) :
    (m.upTo tr = [] ∧ m.lastIn tr = none ∧ ∀ s ∈ written tr, m.counts s.1 = false) ∨
    ∃ pre it c post, tr = pre ++ .saved it c :: post ∧ m.counts it = true ∧
      m.upTo tr = pre ++ [.saved it c] ∧ m.lastIn tr = some (it, c) ∧
      ∀ s ∈ written post, m.counts s.1 = false := by
  induction tr using List.reverseRecOn with
  | nil => exact .inl ⟨rfl, rfl, by simp [written]⟩
  | append_singleton tr e ih =>
    have hcases : m.countsE e = true ∨ m.countsE e = false := by cases m.countsE e <;> simp
    rcases hcases with he | he
    · right
      cases e with
      | saved it c =>
        refine ⟨tr, it, c, [], rfl, he, ?_, ?_, by simp [written]⟩
        · unfold Manager.upTo
          rw [List.reverse_append, List.reverse_singleton, List.singleton_append,
            List.dropWhile_cons_of_neg (by rw [he]; simp)]
          simp
        · have he' : m.counts it = true := he
          rw [lastIn_append, show m.lastIn [Event.saved it c] = some (it, c) by
            simp [Manager.lastIn, written, he']]
          rfl
      | _ => cases he
    · have hu : m.upTo (tr ++ [e]) = m.upTo tr := by
        unfold Manager.upTo
        rw [List.reverse_append, List.reverse_singleton, List.singleton_append,
          List.dropWhile_cons_of_pos (by rw [he]; rfl)]
      have hw : ∀ s ∈ written [e], m.counts s.1 = false := by
        intro s hs
        cases e with
        | saved it c =>
          have : s = (it, c) := by simpa [written] using hs
          subst this; exact he
        | _ => simp [written] at hs
      have hl : m.lastIn (tr ++ [e]) = m.lastIn tr := by
        rw [lastIn_append]
        have : m.lastIn [e] = none := by
          unfold Manager.lastIn
          rw [List.filter_eq_nil_iff.2 (fun s hs => by rw [hw s hs]; simp)]
          rfl
        rw [this]; rfl
      rw [hu, hl]
      rcases ih with ⟨h1, h2, h3⟩ | ⟨pre, it, c, post, h1, h2, h3, h4, h5⟩
      · refine .inl ⟨h1, h2, fun s hs => ?_⟩
        rw [written_append] at hs
        rcases List.mem_append.1 hs with hs | hs
        · exact h3 s hs
        · exact hw s hs
      · refine .inr ⟨pre, it, c, post ++ [e], by rw [h1]; simp, h2, h3, h4, fun s hs => ?_⟩
        rw [written_append] at hs
        rcases List.mem_append.1 hs with hs | hs
        · exact h5 s hs
        · exact hw s hs

theorem after_eq (m : Manager) (d : Dir) (tr : List (Event n)) :
    m.after d tr = m.saveAll d ((written tr).map fun s => (s.1, s.2.toWire)) := by
  unfold Manager.after Manager.saveAll
  rw [List.foldl_map]

/-- Loading a file that holds a checkpoint of the optimizer. -/
theorem finds_of_load {m : Manager} {d : Dir} {c : Ckpt n} (hc : CkptOk m.feat c.toWire)
    (he : m.exists? d = .ok true) (hl : m.loadLatest d = .ok c.toWire) : m.finds n d = some (some (.ok c)) := by
  unfold Manager.finds Manager.discover
  rw [he, hl]
  dsimp only
  obtain ⟨⟨a, r, p⟩, nm, k⟩ := m
  have hr : r = true := by
    have := hc.rayon
    exact this.symm
  subst hr
  have := GS.Props.C39_optimizer a p c hc
  rw [GS.Props.C39_load _ _ hc, Option.bind_some] at this
  rw [this]
  rfl

theorem finds_none {m : Manager} {d : Dir} (he : m.exists? d = .ok false) : m.finds n d = some none := by
  unfold Manager.finds Manager.discover
  rw [he]

/-! ### Settings -/

/-- The checkpoint carries the settings of the optimizer. -/
structure Ckpt.settings (c : Ckpt n) (o : Opt n) : Prop where
  params : c.params = o.params
  target : c.targetObjective = o.target
  exclude : c.excludeOutOfBounds = o.exclude
  batch : c.batchIterations = o.batch
  par : c.enableParallel = o.par
  absTol : c.absTol = o.absTol
  relTol : c.relTol = o.relTol

theorem Ckpt.settings.setCfg {c : Ckpt n} {o : Opt n} (h : c.settings o) (env : Env n) :
    ((started env o).restore c).setCfg = o.setCfg := by
  unfold Opt.setCfg
  show (⟨o.problem, c.excludeOutOfBounds, c.absTol, c.relTol, c.params.distanceFactor⟩ : SetCfg n) = _
  rw [h.exclude, h.absTol, h.relTol, h.params]

/-! ### Order of checkpoints in sequential runs -/

def Mark.num : Mark → Nat
  | .iteration i => i
  | .called i => i
  | .written i => i
  | .failed i => i

theorem callMarks_num (key : Option (Option Nat × Nat)) (i : Nat) : ∀ x ∈ callMarks key i, x.num = i := by
  intro x hx
  unfold callMarks at hx
  split at hx
  · split at hx
    · rw [List.mem_singleton] at hx; subst hx; rfl
    · cases hx
  · cases hx

theorem block_num (key : Option (Option Nat × Nat)) (ck : Option CkptConfig) (i : Nat) :
    ∀ x ∈ block key ck i, x.num = i := by
  intro x hx
  unfold block at hx
  rcases List.mem_cons.1 hx with h | h
  · subst h; rfl
  · rcases List.mem_append.1 h with h | h
    · exact callMarks_num key i x h
    · unfold saveMarks at h
      split at h
      · split at h
        · rw [List.mem_singleton] at h; subst h; rfl
        · cases h
      · cases h

theorem finalMarks_num (ck : Option CkptConfig) (i : Nat) : ∀ x ∈ finalMarks ck i, x.num = i := by
  intro x hx
  unfold finalMarks at hx
  split at hx
  · rw [List.mem_singleton] at hx; subst hx; rfl
  · cases hx

/-- Numbers never decrease and start at `st`. -/
def Rising (st : Nat) (l : List Mark) : Prop :=
  (∀ x ∈ l, st ≤ x.num) ∧ l.Pairwise fun x y => x.num ≤ y.num

theorem const_pairwise {l : List Mark} {i : Nat} (h : ∀ x ∈ l, x.num = i) :
    l.Pairwise fun x y => x.num ≤ y.num :=
  List.Pairwise.imp_of_mem (R := fun _ _ => True) (fun {a b} ha hb _ => by rw [h a ha, h b hb])
    (List.pairwise_of_forall fun _ _ => trivial)

theorem blocks_rising (key : Option (Option Nat × Nat)) (ck : Option CkptConfig) (st k : Nat) :
    Rising st ((List.range' st k).flatMap (block key ck)) ∧
      ∀ x ∈ (List.range' st k).flatMap (block key ck), x.num < st + k := by
  have hm : ∀ x ∈ (List.range' st k).flatMap (block key ck), st ≤ x.num ∧ x.num < st + k := by
    intro x hx
    rw [List.mem_flatMap] at hx
    obtain ⟨i, hi, hx⟩ := hx
    rw [block_num key ck i x hx]
    rw [List.mem_range'_1] at hi
    exact hi
  refine ⟨⟨fun x hx => (hm x hx).1, ?_⟩, fun x hx => (hm x hx).2⟩
  clear hm
  induction k generalizing st with
  | zero => simp
  | succ k ih =>
    rw [List.range'_succ, List.flatMap_cons, List.pairwise_append]
    refine ⟨const_pairwise (block_num key ck st), ih (st + 1), fun x hx y hy => ?_⟩
    rw [block_num key ck st x hx]
    rw [List.mem_flatMap] at hy
    obtain ⟨i, hi, hy⟩ := hy
    rw [block_num key ck i y hy]
    rw [List.mem_range'_1] at hi
    omega

theorem rising_append {st k : Nat} {key : Option (Option Nat × Nat)} {ck : Option CkptConfig}
    {t : List Mark} {i : Nat} (ht : ∀ x ∈ t, x.num = i) (hi : st + k ≤ i + 1) (hst : st ≤ i) :
    Rising st ((List.range' st k).flatMap (block key ck) ++ t) := by
  obtain ⟨⟨h1, h2⟩, h3⟩ := blocks_rising key ck st k
  refine ⟨fun x hx => ?_, ?_⟩
  · rcases List.mem_append.1 hx with h | h
    · exact h1 x h
    · rw [ht x h]; exact hst
  · rw [List.pairwise_append]
    refine ⟨h2, const_pairwise ht, fun x hx y hy => ?_⟩
    have := h3 x hx
    rw [ht y hy]; omega

theorem Shape.rising {key : Option (Option Nat × Nat)} {ck : Option CkptConfig} {st : Nat} {r : M n × Out}
    (h : Shape key ck st r) : Rising st (marks r.1.trace) := by
  cases ho : r.2 with
  | stop => rw [h.stop ho]; exact ⟨by simp, by simp⟩
  | cont =>
    obtain ⟨k, h1 | ⟨_, h1⟩⟩ := h.cont ho
    · rw [h1]; exact rising_append (finalMarks_num ck _) (by omega) (by omega)
    · rw [h1]
      refine rising_append (i := st + k) (fun x hx => ?_) (by omega) (by omega)
      rcases List.mem_cons.1 hx with h | h
      · subst h; rfl
      · exact finalMarks_num ck _ x h
  | fail e =>
    obtain ⟨k, t, h1, h2⟩ := h.fail e ho
    rw [h1]
    rcases h2 with h2 | h2 | h2
    · subst h2
      exact rising_append (i := st + (k - 1)) (fun x hx => by
        rw [List.mem_singleton] at hx; subst hx; rfl) (by omega) (by omega)
    · subst h2
      refine rising_append (i := st + k) (fun x hx => ?_) (by omega) (by omega)
      simp only [List.mem_cons, List.not_mem_nil, or_false] at hx
      rcases hx with rfl | rfl <;> rfl
    · refine rising_append (i := st + k) (fun x hx => ?_) (by omega) (by omega)
      have hx := h2.subset hx
      rcases List.mem_cons.1 hx with h | h
      · subst h; rfl
      · rcases List.mem_append.1 h with h | h
        · exact callMarks_num key _ x h
        · rw [List.mem_singleton] at h; subst h; rfl

/-- The iterations of the checkpoints written. -/
theorem written_rising {st : Nat} {tr : List (Event n)} (h : Rising st (marks tr)) :
    (∀ s ∈ written tr, st ≤ s.1) ∧ (written tr).Pairwise fun x y => x.1 ≤ y.1 := by
  obtain ⟨h1, h2⟩ := h
  induction tr with
  | nil => exact ⟨by simp [written], by simp [written]⟩
  | cons e l ih =>
    have hsub : ∀ s ∈ written l, Mark.written s.1 ∈ marks l := by
      intro s hs
      unfold written at hs
      rw [List.mem_filterMap] at hs
      obtain ⟨e, he, hs⟩ := hs
      cases e with
      | saved it c => cases hs; exact List.mem_filterMap.2 ⟨_, he, rfl⟩
      | _ => cases hs
    have hmarks : marks (e :: l) = marks [e] ++ marks l := marks_append [e] l
    rw [hmarks] at h1 h2
    rw [List.pairwise_append] at h2
    obtain ⟨i1, i2⟩ := ih (fun x hx => h1 x (List.mem_append_right _ hx)) h2.2.1
    have hw : written (e :: l) = written [e] ++ written l := written_append [e] l
    rw [hw]
    cases e with
    | saved it c =>
      have e1 : written [Event.saved it c] = [(it, c)] := rfl
      have e2 : marks [Event.saved it c] = [Mark.written it] := rfl
      rw [e2] at h1 h2
      rw [e1]
      refine ⟨fun s hs => ?_, ?_⟩
      · rcases List.mem_append.1 hs with h | h
        · rw [List.mem_singleton] at h
          subst h
          exact h1 (.written it) (by simp)
        · exact i1 s h
      · rw [List.pairwise_append]
        refine ⟨by simp, i2, fun x hx y hy => ?_⟩
        rw [List.mem_singleton] at hx
        subst hx
        exact h2.2.2 _ (List.mem_singleton.2 rfl) _ (hsub y hy)
    | _ => exact ⟨i1, i2⟩

/-! ### The invariant -/

/-- All events of some lifetimes, up to the last checkpoint of each. -/
def Manager.keptOf (m : Manager) (h : List (List (Event n))) : List (Event n) := h.flatMap m.upTo

/-- The directory and what happened. -/
structure LifeInv (m : Manager) (o : Opt n) (d : Dir) (h : List (List (Event n))) : Prop where
  nodup : (names d).Nodup
  single : m.keepAll = false → d.lookup (.utf8 (Name.file false m.name 0)) =
    (m.lastIn h.flatten).map fun s => Enc.ckpt m.feat s.2.toWire
  keep : m.keepAll = true → (∀ g ∈ names d, ∀ j, iter m.name g = some j →
      g = .utf8 (Name.file true m.name j) ∧ (j = 0 ∨ ∃ s, m.lastIn h.flatten = some s ∧ j ≤ s.1)) ∧
    ∀ s, m.lastIn h.flatten = some s → d.lookup (.utf8 (Name.file true m.name s.1)) =
      some (Enc.ckpt m.feat s.2.toWire)
  value : ∀ s, m.lastIn h.flatten = some s → CkptOk m.feat s.2.toWire
  iter : ∀ s, m.lastIn h.flatten = some s → s.2.currentIteration = s.1 ∧ m.counts s.1 = true
  settings : ∀ s, m.lastIn h.flatten = some s → s.2.settings o
  set : ∀ s, m.lastIn h.flatten = some s →
    s.2.solutionSet = setFold o.setCfg none (procs (m.keptOf h)) ∧
      s.2.distanceFilterSolutions = procs (m.keptOf h)
  empty : m.lastIn h.flatten = none → m.keptOf h = []

theorem LifeInv.found {m : Manager} {o : Opt n} {d : Dir} {h : List (List (Event n))}
    (hi : LifeInv m o d h) : m.finds n d = some ((m.lastIn h.flatten).map fun s => .ok s.2) := by
  cases hk : m.keepAll with
  | false =>
    have h1 := hi.single hk
    cases hl : m.lastIn h.flatten with
    | none =>
      rw [hl] at h1
      refine finds_none ?_
      rw [exists?, if_neg (by rw [hk]; decide), h1]; rfl
    | some s =>
      rw [hl] at h1
      have hc := hi.value s hl
      refine finds_of_load hc ?_ ?_
      · rw [exists?, if_neg (by rw [hk]; decide), h1]; rfl
      · rw [loadLatest, if_neg (by rw [hk]; decide)]
        exact loadPath_of_lookup hc h1
  | true =>
    obtain ⟨h1, h2⟩ := hi.keep hk
    cases hl : m.lastIn h.flatten with
    | none =>
      have hf : m.findLatest d = .err .notFound := findLatest_none fun g hg j hj => by
        rcases (h1 g hg j hj).2 with h | ⟨s, h, _⟩
        · exact h
        · rw [hl] at h; cases h
      refine finds_none ?_
      rw [exists?, if_pos hk, hf]
    | some s =>
      have hc := hi.value s hl
      have hlk := h2 s hl
      have h0 : 0 < s.1 := by
        have := (hi.iter s hl).2
        unfold Manager.counts at this
        rw [hk] at this
        simpa using this
      have h64 : s.1 < 2 ^ 64 := by
        have := hc.iter
        rw [← (hi.iter s hl).1]; exact this
      have hf : m.findLatest d = .ok (.utf8 (Name.file true m.name s.1)) := by
        refine findLatest_eq (lookup_isSome.1 (by rw [hlk]; rfl)) (iter_file _ h64) h0 ?_ ?_
        · intro g hg j hj
          rcases (h1 g hg j hj).2 with h | ⟨s', h, h'⟩
          · omega
          · rw [hl] at h; cases h; exact h'
        · intro g hg hj
          exact (h1 g hg _ hj).1
      refine finds_of_load hc ?_ ?_
      · rw [exists?, if_pos hk, hf]
      · rw [loadLatest, if_pos hk, hf]
        exact loadPath_of_lookup hc hlk

/-- The optimizer writes checkpoints with this manager and resumes by itself. -/
structure Restarts (m : Manager) (o : Opt n) : Prop where
  built : Built o
  config : ∃ cfg, o.ckpt = some cfg ∧ cfg.autoResume = true ∧ m = cfg.manager m.feat

/-- Stage 2 is configured to be sequential, whatever the machine. -/
def Opt.seqConfigured (o : Opt n) : Prop := o.par = false ∨ o.batch = some 1

/-- The optimizer a lifetime starts with. -/
theorem life_start {m : Manager} {o : Opt n} {d : Dir} {h : List (List (Event n))} (hr : Restarts m o)
    (hi : LifeInv m o d h) (env : Env n) : ∃ o1 res,
      startOpt env o ((m.lastIn h.flatten).map fun s => .ok s.2) = .ok (o1, res) ∧ o1.solset ≠ some [] ∧
      o1.setCfg = o.setCfg ∧ o1.solset = setFold o.setCfg none (procs (m.keptOf h)) ∧
      o1.dist.solutions = procs (m.keptOf h) ∧ o1.params = o.params ∧ o1.target = o.target ∧
      o1.exclude = o.exclude ∧ o1.batch = o.batch ∧ o1.par = o.par ∧ o1.absTol = o.absTol ∧
      o1.relTol = o.relTol := by
  obtain ⟨hb, cfg, hc, ha, _⟩ := hr
  have hu := hb.unused
  cases hl : m.lastIn h.flatten with
  | none =>
    have hk := hi.empty hl
    refine ⟨started env o, false, ?_, ?_, rfl, ?_, ?_, rfl, rfl, rfl, rfl, rfl, rfl, rfl⟩
    · show (started env o).tryResume none = _
      unfold Opt.tryResume
      rw [show (started env o).ckpt = o.ckpt from rfl, hc]
      dsimp only
      rw [ha]; rfl
    · show o.solset ≠ _
      rw [hu.solset]; simp
    · show o.solset = _
      rw [hu.solset, hk]; rfl
    · show o.dist.solutions = _
      rw [hu.sols, hk]; rfl
  | some s =>
    obtain ⟨h1, h2⟩ := hi.set s hl
    have hs := hi.settings s hl
    refine ⟨(started env o).restore s.2, true, ?_, ?_, hs.setCfg env, h1, h2, hs.params, hs.target,
      hs.exclude, hs.batch, hs.par, hs.absTol, hs.relTol⟩
    · show (started env o).tryResume (some (.ok s.2)) = _
      unfold Opt.tryResume
      rw [show (started env o).ckpt = o.ckpt from rfl, hc]
      dsimp only
      rw [ha]; rfl
    · show s.2.solutionSet ≠ _
      rw [h1]; exact setFold_ne_nil _ (by simp)

/-- In a sequential lifetime the checkpoints' numbers rise, from that of the checkpoint it started with. -/
theorem life_rising {m : Manager} {o : Opt n} {d : Dir} {h : List (List (Event n))} (hr : Restarts m o)
    (hi : LifeInv m o d h) {env : Env n} (hp : Polite env) (hs : o.seqConfigured) {tr : List (Event n)}
    (ht : tr <+: (run env o ((m.lastIn h.flatten).map fun s => .ok s.2)).final.trace) :
    (∀ s, m.lastIn h.flatten = some s → ∀ w ∈ written tr, s.1 ≤ w.1) ∧
      (written tr).Pairwise fun x y => x.1 ≤ y.1 := by
  obtain ⟨hb, cfg, hc, ha, _⟩ := hr
  have key : ∀ st, SeqFrom env o ((m.lastIn h.flatten).map fun s => .ok s.2) st →
      (∀ w ∈ written tr, st ≤ w.1) ∧ (written tr).Pairwise fun x y => x.1 ≤ y.1 := by
    intro st hst
    obtain ⟨r, hrun, hsh⟩ := hst.shape hp
    rw [hrun, finish_final] at ht
    obtain ⟨rest, ht⟩ := ht
    have hris := hsh.rising
    rw [← ht, marks_append] at hris
    refine written_rising ⟨fun x hx => hris.1 x (List.mem_append_left _ hx), ?_⟩
    exact (List.pairwise_append.1 hris.2).1
  cases hl : m.lastIn h.flatten with
  | none =>
    rw [hl] at key
    refine ⟨(fun s h => by cases h), (key 0 (.fresh hb (Or.inl rfl) ?_)).2⟩
    rcases hs with hs | hs
    · exact Or.inl hs
    · exact Or.inr (Or.inl hs)
  | some s =>
    rw [hl] at key
    have hset := hi.settings s hl
    have hk := key s.2.currentIteration (.resumed (c := s.2) ⟨rfl, cfg, hc, ha⟩ (by
      rcases hs with hs | hs
      · exact Or.inl (by show s.2.enableParallel = false; rw [hset.par]; exact hs)
      · exact Or.inr (Or.inl (by show s.2.batchIterations = some 1; rw [hset.batch]; exact hs))))
    refine ⟨fun s' h w hw => ?_, hk.2⟩
    cases h
    rw [← (hi.iter s hl).1]
    exact hk.1 w hw

theorem keptOf_snoc (m : Manager) (h : List (List (Event n))) (tr : List (Event n)) :
    m.keptOf (h ++ [tr]) = m.keptOf h ++ m.upTo tr := by
  unfold Manager.keptOf
  rw [List.flatMap_append]; simp

theorem flatten_snoc {α : Type} (h : List (List α)) (t : List α) : (h ++ [t]).flatten = h.flatten ++ t := by simp

/-- One more lifetime. -/
theorem LifeInv.next {m : Manager} {o : Opt n} {d d' : Dir} {h : List (List (Event n))} (hr : Restarts m o)
    (hi : LifeInv m o d h) {env : Env n} {tr : List (Event n)} (hl : Life m o d env tr d')
    (hmode : m.keepAll = true → o.seqConfigured ∧ Polite env) : LifeInv m o d' (h ++ [tr]) := by
  obtain ⟨⟨loaded, hfind, htr⟩, -, hval, hdir⟩ := hl
  rw [hi.found] at hfind
  cases hfind
  obtain ⟨o1, res, hst, hne, hcfg, hset, hdist, hp1, hp2, hp3, hp4, hp5, hp6, hp7⟩ := life_start hr hi env
  rw [after_eq] at hdir
  have hnd0 : (names (m.saveAll d ((written tr).map fun s => (s.1, s.2.toWire)))).Nodup :=
    nodup_saveAll _ hi.nodup
  have hnd : (names d').Nodup := (hdir.map _).nodup_iff.2 hnd0
  have hlook : ∀ g, d'.lookup g = (m.saveAll d ((written tr).map fun s => (s.1, s.2.toWire))).lookup g :=
    fun g => lookup_perm hdir hnd0 g
  have hnames : ∀ g, g ∈ names d' ↔ (∃ s ∈ written tr, g = .utf8 (Name.file m.keepAll m.name s.1)) ∨
      g ∈ names d := by
    intro g
    rw [names_perm hdir, mem_names_saveAll]
    constructor
    · rintro (⟨s, hs, h⟩ | h)
      · obtain ⟨w, hw, rfl⟩ := List.mem_map.1 hs
        exact .inl ⟨w, hw, h⟩
      · exact .inr h
    · rintro (⟨s, hs, h⟩ | h)
      · exact .inl ⟨_, List.mem_map_of_mem hs, h⟩
      · exact .inr h
  have hw64 : ∀ s ∈ written tr, s.1 < 2 ^ 64 := by
    intro s hs
    have hck := hval s hs
    have : s.2.currentIteration = s.1 := by
      unfold written at hs
      rw [List.mem_filterMap] at hs
      obtain ⟨e, he, hs⟩ := hs
      cases e with
      | saved it c =>
        cases hs
        obtain ⟨a, b, hab⟩ := List.append_of_mem he
        obtain ⟨rest, hrest⟩ := htr
        rw [hab] at hrest
        exact (GS.Props.C49_contents hst hne (pre := a) (post := b ++ rest) (it := it) (c := c) (by
          rw [← hrest]; simp)).1
      | _ => cases hs
    rw [← this]; exact hck.iter
  rcases upTo_cases m tr with ⟨u1, u2, u3⟩ | ⟨pre, it, c, post, u1, u2, u3, u4, u5⟩
  · have hlast : m.lastIn (h ++ [tr]).flatten = m.lastIn h.flatten := by
      rw [flatten_snoc, lastIn_append, u2]; rfl
    have hkept : m.keptOf (h ++ [tr]) = m.keptOf h := by rw [keptOf_snoc, u1, List.append_nil]
    have hsame : m.keepAll = false → written tr = [] := by
      intro hk
      rw [List.eq_nil_iff_forall_not_mem]
      intro s hs
      have := u3 s hs
      unfold Manager.counts at this
      rw [hk] at this; simp at this
    constructor
    · exact hnd
    · intro hk
      rw [hlook, hsame hk, hlast]
      exact hi.single hk
    · intro hk
      obtain ⟨k1, k2⟩ := hi.keep hk
      obtain ⟨hs, hp⟩ := hmode hk
      have hz : ∀ s ∈ written tr, s.1 = 0 := by
        intro s hs
        have := u3 s hs
        unfold Manager.counts at this
        rw [hk] at this
        simpa using this
      rw [hlast]
      refine ⟨fun g hg j hj => ?_, fun s hls => ?_⟩
      · rcases (hnames g).1 hg with ⟨s, hs, rfl⟩ | hg
        · rw [hk, iter_file _ (hw64 s hs)] at hj
          cases hj
          exact ⟨by rw [hk], Or.inl (hz s hs)⟩
        · exact k1 g hg j hj
      · rw [hlook, lookup_saveAll_other _ (fun x hx hc => ?_), k2 s hls]
        obtain ⟨w, hw, rfl⟩ := List.mem_map.1 hx
        rw [hk] at hc
        have := Name.file_inj (FName.utf8.inj hc)
        have h0 := (hi.iter s hls).2
        unfold Manager.counts at h0
        rw [hk] at h0
        have h0 : 0 < s.1 := by simpa using h0
        have := hz w hw
        omega
    · rw [hlast]; exact hi.value
    · rw [hlast]; exact hi.iter
    · rw [hlast]; exact hi.settings
    · rw [hlast, hkept]; exact hi.set
    · rw [hlast, hkept]; exact hi.empty
  · have hlast : m.lastIn (h ++ [tr]).flatten = some (it, c) := by
      rw [flatten_snoc, lastIn_append, u4]; rfl
    have hmem : (it, c) ∈ written tr := by rw [u1]; simp [written]
    obtain ⟨rest, hrest⟩ := id htr
    have hcont := GS.Props.C49_contents hst hne (pre := pre) (post := post ++ rest) (it := it) (c := c) (by
      rw [← hrest]
      conv_lhs => rw [u1]
      simp)
    obtain ⟨q1, q2, q3, q4, q5, q6, q7, q8, q9, q10⟩ := hcont
    have hpr : procs (m.upTo tr) = procs pre := by
      rw [u3, procs_append]; simp [procs]
    have hwr : (written tr).map (fun s => (s.1, s.2.toWire)) =
        (written pre).map (fun s => (s.1, s.2.toWire)) ++ (it, c.toWire) ::
          (written post).map (fun s => (s.1, s.2.toWire)) := by
      conv_lhs => rw [u1]
      rw [written_append, List.map_append]
      rfl
    have hpost : written post = [] := by
      rw [List.eq_nil_iff_forall_not_mem]
      intro s hs
      have h5 := u5 s hs
      unfold Manager.counts at h5 u2
      cases hk : m.keepAll with
      | false => rw [hk] at h5; simp at h5
      | true =>
        rw [hk] at h5 u2
        have h5 : s.1 = 0 := by simpa using h5
        have u2 : 0 < it := by simpa using u2
        obtain ⟨hs', hp⟩ := hmode hk
        have hris := (life_rising hr hi hp hs' htr).2
        rw [u1, written_append, List.pairwise_append] at hris
        have h6 := hris.2.1
        rw [show written (Event.saved it c :: post) = (it, c) :: written post from rfl,
          List.pairwise_cons] at h6
        have := h6.1 s hs
        omega
    have hfile : d'.lookup (.utf8 (Name.file m.keepAll m.name it)) = some (Enc.ckpt m.feat c.toWire) := by
      rw [hlook, hwr, hpost]
      exact lookup_saveAll (by simp)
    constructor
    · exact hnd
    · intro hk
      rw [hlast]
      rw [hk] at hfile
      exact hfile
    · intro hk
      obtain ⟨k1, k2⟩ := hi.keep hk
      obtain ⟨hs', hp⟩ := hmode hk
      obtain ⟨r1, r2⟩ := life_rising hr hi hp hs' htr
      rw [hlast]
      refine ⟨fun g hg j hj => ?_, fun s hls => ?_⟩
      · rcases (hnames g).1 hg with ⟨s, hs, rfl⟩ | hg
        · rw [hk, iter_file _ (hw64 s hs)] at hj
          cases hj
          refine ⟨by rw [hk], Or.inr ⟨_, rfl, ?_⟩⟩
          rw [u1, written_append] at hs r2
          rw [List.pairwise_append] at r2
          rcases List.mem_append.1 hs with hs | hs
          · exact r2.2.2 s hs (it, c) (by simp [written])
          · rw [show written (Event.saved it c :: post) = (it, c) :: written post from rfl, hpost,
              List.mem_singleton] at hs
            rw [hs]
        · obtain ⟨e1, e2⟩ := k1 g hg j hj
          refine ⟨e1, ?_⟩
          rcases e2 with e2 | ⟨s, e2, e3⟩
          · exact Or.inl e2
          · exact Or.inr ⟨_, rfl, Nat.le_trans e3 (r1 s e2 (it, c) hmem)⟩
      · cases hls
        rw [hk] at hfile
        exact hfile
    · rw [hlast]; intro s hs; cases hs; exact hval _ hmem
    · rw [hlast]; intro s hs; cases hs; exact ⟨q1, u2⟩
    · rw [hlast]; intro s hs; cases hs
      exact ⟨q4.trans hp1, q5.trans hp2, q6.trans hp3, q7.trans hp4, q8.trans hp5, q9.trans hp6,
        q10.trans hp7⟩
    · rw [hlast, keptOf_snoc, procs_append, hpr]
      intro s hs
      cases hs
      refine ⟨?_, ?_⟩
      · rw [setFold_append, ← hset, ← hcfg]; exact q2
      · rw [← hdist]; exact q3
    · rw [hlast]; intro h; cases h

/-- The invariant holds at the beginning, in a directory without checkpoints of this name. -/
theorem LifeInv.start {m : Manager} {o : Opt n} {d : Dir} (hn : (names d).Nodup)
    (h1 : FName.utf8 (m.name ++ ['.', 'b', 'i', 'n']) ∉ names d)
    (h2 : ∀ f ∈ names d, ∀ i, ¬ Ours m.name f i) : LifeInv m o d [] := by
  have hl : m.lastIn ([] : List (List (Event n))).flatten = none := rfl
  constructor
  · exact hn
  · intro _; rw [hl]; exact lookup_eq_none.2 h1
  · intro _
    refine ⟨fun g hg j hj => absurd (ours_iff.2 hj) (h2 g hg j), fun s hs => ?_⟩
    rw [hl] at hs; cases hs
  all_goals first
    | (intro s hs; rw [hl] at hs; cases hs)
    | (intro _; rfl)

theorem LifeInv.all {m : Manager} {o : Opt n} {d0 d : Dir} (hr : Restarts m o) (hn : (names d0).Nodup)
    (h1 : FName.utf8 (m.name ++ ['.', 'b', 'i', 'n']) ∉ names d0)
    (h2 : ∀ f ∈ names d0, ∀ i, ¬ Ours m.name f i) {h : List (Env n × List (Event n))}
    (hmode : m.keepAll = true → o.seqConfigured ∧ ∀ x ∈ h, Polite x.1) (hl : Lives m o d0 h d) :
    LifeInv m o d (h.map Prod.snd) := by
  induction hl with
  | start => exact LifeInv.start hn h1 h2
  | next _ hlife ih =>
    rw [List.map_append]
    refine (ih fun hk => ?_).next hr hlife fun hk => ?_
    · obtain ⟨a, b⟩ := hmode hk
      exact ⟨a, fun x hx => b x (by simp [hx])⟩
    · obtain ⟨a, b⟩ := hmode hk
      exact ⟨a, b _ (List.mem_append_right _ (List.mem_singleton.2 rfl))⟩

end GS
