/- The order of checkpoint writes and local searches, in any mode. -/
import Verif.Lemmas.Count

namespace GS
open F64
variable {n : Nat}

/-- A completed checkpoint write (`true`) or a local search (`false`) of stage 2, with its iteration. -/
def Event.tag : Event n → Option (Bool × Nat)
  | .saved it _ => some (true, it)
  | .search (some j) _ _ => some (false, j)
  | _ => none

/-- Checkpoint writes and local searches, in order. -/
def tags (tr : List (Event n)) : List (Bool × Nat) := tr.filterMap Event.tag

theorem tags_append (a b : List (Event n)) : tags (a ++ b) = tags a ++ tags b := by simp [tags]

/-- What an action adds is part of the given list; the current iteration stays `i`. -/
def Tags (i : Nat) (a : Act n) (L : List (Bool × Nat)) : Prop := ∀ m, m.opt.curIter = i →
  (a m).1.opt.curIter = i ∧ ∃ t, (a m).1.trace = m.trace ++ t ∧ (tags t).Sublist L

/-- The same for an action that may change the current iteration. -/
def Emit (a : Act n) (L : List (Bool × Nat)) : Prop := ∀ m,
  ∃ t, (a m).1.trace = m.trace ++ t ∧ (tags t).Sublist L

theorem Tags.seq {i : Nat} {a b : Act n} {L L' : List (Bool × Nat)} (ha : Tags i a L) (hb : Tags i b L') :
    Tags i (a ;; b) (L ++ L') := by
  intro m hm
  rw [Act.seq_def]
  obtain ⟨h1, t, h2, h3⟩ := ha m hm
  split
  · obtain ⟨k1, t', k2, k3⟩ := hb _ h1
    exact ⟨k1, t ++ t', by rw [k2, h2, List.append_assoc], by rw [tags_append]; exact h3.append k3⟩
  · exact ⟨h1, t, h2, h3.trans (List.sublist_append_left _ _)⟩

theorem Emit.seq {a b : Act n} {L L' : List (Bool × Nat)} (ha : Emit a L) (hb : Emit b L') :
    Emit (a ;; b) (L ++ L') := by
  intro m
  rw [Act.seq_def]
  obtain ⟨t, h2, h3⟩ := ha m
  split
  · obtain ⟨t', k2, k3⟩ := hb (a m).1
    exact ⟨t ++ t', by rw [k2, h2, List.append_assoc], by rw [tags_append]; exact h3.append k3⟩
  · exact ⟨t, h2, h3.trans (List.sublist_append_left _ _)⟩

theorem Emit.all {α : Type} (l : List α) (g : α → Act n) (f : α → List (Bool × Nat))
    (h : ∀ a ∈ l, Emit (g a) (f a)) : Emit (Act.all (l.map g)) (l.flatMap f) := by
  induction l with
  | nil => intro m; exact ⟨[], by simp [Act.all, Act.skip], by simp [tags]⟩
  | cons a l ih =>
    rw [List.flatMap_cons, List.map_cons]
    exact (h a (by simp)).seq (ih fun x hx => h x (by simp [hx]))

theorem Tags.mute {i : Nat} {a : Act n} (hk : KeepIter a) (ht : ∀ m, ∃ t, (a m).1.trace = m.trace ++ t ∧ tags t = []) :
    Tags i a [] := by
  intro m hm
  obtain ⟨t, h1, h2⟩ := ht m
  exact ⟨(hk m).trans hm, t, h1, by simp [h2]⟩

theorem Tags.same {i : Nat} {a : Act n} (hk : KeepIter a) (ht : ∀ m, (a m).1.trace = m.trace) : Tags i a [] :=
  Tags.mute hk fun m => ⟨[], by simp [ht m], rfl⟩

theorem Emit.same {a : Act n} (ht : ∀ m, (a m).1.trace = m.trace) : Emit a [] :=
  fun m => ⟨[], by simp [ht m], by simp [tags]⟩

theorem Tags.skip {i : Nat} : Tags i (Act.skip (n := n)) [] := Tags.same KeepIter.skip fun _ => rfl
theorem Tags.obs {i : Nat} {f : Opt n → Obs n → Obs n} : Tags i (Act.modify fun o => o.mapObs (f o)) [] :=
  Tags.same KeepIter.obs fun _ => rfl
theorem Tags.obsIter {i k : Nat} : Tags i (Act.obsIter (n := n) k) [] := Tags.same (fun _ => rfl) fun _ => rfl
theorem Tags.setThreshold {i : Nat} (v : F64) : Tags i (Act.setThreshold (n := n) v) [] :=
  Tags.same (fun _ => rfl) fun _ => rfl
theorem Tags.stopIfTarget {i : Nat} : Tags i (Act.stopIfTarget (n := n)) [] :=
  Tags.same (fun _ => rfl) fun _ => rfl
theorem Tags.log {i : Nat} {e : Event n} (h : e.tag = none) : Tags i (Act.log e) [] :=
  Tags.mute (fun _ => rfl) fun _ => ⟨[e], rfl, by simp [tags, h]⟩

theorem Tags.reject {i : Nat} (k : Nat) : Tags i (Act.reject (n := n) k) [] := by
  refine Tags.mute ?_ ?_
  · intro m; unfold Act.reject; split <;> rfl
  · intro m
    unfold Act.reject
    split
    · exact ⟨[.relaxed _ _], rfl, rfl⟩
    · exact ⟨[], by simp, rfl⟩

theorem Tags.invoke {i : Nat} (env : Env n) (k : Nat) : Tags i (Act.invoke env k) [] := by
  refine Tags.mute (KeepIter.invoke env k) ?_
  intro m
  unfold Act.invoke
  split
  · exact ⟨[], by simp, rfl⟩
  · dsimp only
    split
    · exact ⟨[.callback _ _ _], rfl, rfl⟩
    · exact ⟨[], by simp, rfl⟩

theorem Tags.callback {i : Nat} (env : Env n) (k : Nat) : Tags i (Act.callback env k) [] := by
  intro m hm
  unfold Act.callback
  split
  · exact Tags.skip m hm
  · split
    · exact ⟨hm, [], by simp, by simp [tags]⟩
    · exact Tags.invoke env _ m hm
    · exact Tags.skip m hm

theorem Tags.writeCkpt {i : Nat} (env : Env n) : Tags i (Act.writeCkpt env) [(true, i)] := by
  intro m hm
  unfold Act.writeCkpt
  dsimp only
  split
  · exact ⟨hm, [_], rfl, by simp [tags, Event.tag]⟩
  · exact ⟨hm, [_], rfl, by simp [tags, Event.tag, hm]⟩

theorem Tags.save {i : Nat} (env : Env n) : Tags i (Act.save env) [(true, i)] := by
  intro m hm
  unfold Act.save
  split
  · exact ⟨hm, [], by simp, by simp [tags]⟩
  · split
    · exact ⟨hm, [], by simp, by simp [tags]⟩
    · split
      · exact Tags.writeCkpt env m hm
      · exact ⟨hm, [], by simp, by simp [tags]⟩

theorem Tags.process {i : Nat} {s : Sol n} {k : Verdict → Act n} {L : List (Bool × Nat)}
    (hk : ∀ v, Tags i (k v) L) : Tags i (Act.process s k) L := by
  intro m hm
  unfold Act.process
  dsimp only
  have hi : (m.opt.process s).1.curIter = i := (Opt.process_curIter _ _).trans hm
  split
  · exact ⟨hi, [.processed s (m.opt.process s).2], rfl, by
      rw [show tags [Event.processed s (m.opt.process s).2] = [] from rfl]; simp⟩
  · obtain ⟨a, t, b, c⟩ := hk (m.opt.process s).2
      { m with opt := (m.opt.process s).1, trace := m.trace ++ [.processed s (m.opt.process s).2] } hi
    exact ⟨a, .processed s (m.opt.process s).2 :: t, by rw [b]; simp, by
      simpa [tags, List.filterMap_cons, Event.tag] using c⟩

theorem Tags.search {i j : Nat} {env : Env n} {ty : SolverType} {cfg : SolverConfig} {p : Pt n}
    {k : Sol n → Nat → Act n} {L : List (Bool × Nat)} (hk : ∀ s e, Tags i (k s e) L) :
    Tags i (Act.search env ty cfg (some j) p k) ((false, j) :: L) := by
  intro m hm
  unfold Act.search
  split
  · exact ⟨hm, [_], rfl, by simp [tags, Event.tag]⟩
  · rename_i s evals _
    obtain ⟨a, t, b, c⟩ := hk s (if m.opt.tracks2 = true then evals else 0)
      { m with trace := m.trace ++ [.search (some j) p (.ok s)] } hm
    refine ⟨a, .search (some j) p (.ok s) :: t, by rw [b]; simp, ?_⟩
    rw [show tags (Event.search (some j) p (.ok s) :: t) = (false, j) :: tags t from rfl]
    exact c.cons_cons _

/-- What follows `beginIter`. -/
theorem Emit.begin {env : Env n} {i : Nat} {a : Act n} {L : List (Bool × Nat)} (h : Tags i a L) :
    Emit (Act.beginIter env i ;; a) L := by
  intro m
  rw [Act.seq_def]
  have h1 : (Act.beginIter env i m).1.opt.curIter = i := by
    unfold Act.beginIter; dsimp only; split <;> rfl
  have h2 : (Act.beginIter env i m).1.trace = m.trace := by
    unfold Act.beginIter; dsimp only; split <;> rfl
  split
  · obtain ⟨_, t, a, b⟩ := h _ h1
    exact ⟨t, by rw [a, h2], b⟩
  · exact ⟨[], by simp [h2], by simp [tags]⟩

theorem Tags.localSeq {i j : Nat} (env : Env n) (p : Pt n) (v : F64) :
    Tags i (Act.localSeq env j p v) [(false, j)] := by
  intro m hm
  unfold Act.localSeq
  exact ((Tags.setThreshold v).seq (Tags.search (L := []) fun s e => Tags.process fun _ =>
    Tags.obs.seq Tags.stopIfTarget)) m hm

theorem Tags.getMerit {i : Nat} {objs : Option (List F64)} {it : Nat} {p : Pt n} {k : F64 → Act n}
    {L : List (Bool × Nat)} (hk : ∀ v, Tags i (k v) L) : Tags i (Act.getMerit objs it p k) L := by
  intro m hm
  unfold Act.getMerit
  dsimp only
  have hm1 : (if objs.isNone = true then { m with trace := m.trace ++ [.evaluate it p] } else m).opt.curIter = i ∧
      ∃ t, (if objs.isNone = true then { m with trace := m.trace ++ [.evaluate it p] } else m).trace =
        m.trace ++ t ∧ tags t = [] := by
    split
    · exact ⟨hm, [.evaluate it p], rfl, rfl⟩
    · exact ⟨hm, [], by simp, rfl⟩
  obtain ⟨h1, t, h2, h3⟩ := hm1
  generalize (if objs.isNone = true then { m with trace := m.trace ++ [.evaluate it p] } else m) = m1 at *
  split
  · exact ⟨h1, t, h2, by rw [h3]; simp⟩
  · rename_i v _
    have hq : Tags i (if objs.isNone = true then Act.obsEvals (n := n) 1 else Act.skip) [] := by
      split
      · exact Tags.obs
      · exact Tags.skip
    obtain ⟨a, t', b, c⟩ := hq.seq (hk v) m1 h1
    exact ⟨a, t ++ t', by rw [b, h2, List.append_assoc], by rw [tags_append, h3]; exact c⟩

theorem Emit.stepSeq (env : Env n) (r : Bool) (st : Nat) (objs : Option (List F64)) (it : Nat × Pt n) :
    Emit (Act.stepSeq env r st objs it) [(false, it.1), (true, it.1)] := by
  unfold Act.stepSeq
  split
  · intro m; exact ⟨[], by simp [Act.skip], by simp [tags]⟩
  · refine Emit.begin (Tags.obsIter.seq (Tags.getMerit fun v => ?_))
    intro m hm
    have hmid : Tags it.1 (if m.opt.shouldStart it.2 v = true then Act.localSeq env it.1 it.2 v
        else Act.reject it.1) [(false, it.1)] := by
      split
      · exact Tags.localSeq env it.2 v
      · intro m' hm'
        obtain ⟨a, t, b, c⟩ := Tags.reject (n := n) it.1 m' hm'
        exact ⟨a, t, b, c.trans (by simp)⟩
    exact ((Tags.log rfl).seq (hmid.seq ((Tags.callback env it.1).seq (Tags.save env)))) m hm

theorem Emit.quickPar (env : Env n) (i : Nat) : Emit (Act.quickPar env i) [(true, i)] :=
  Emit.begin ((Tags.reject i).seq (Tags.obsIter.seq ((Tags.callback env i).seq (Tags.save env))))

theorem Emit.resultPar (env : Env n) (i : Nat) (v : F64) (s : Sol n) (e : Nat) :
    Emit (Act.resultPar env i v s e) [(true, i)] :=
  Emit.begin ((Tags.setThreshold v).seq (Tags.process fun _ => Tags.obs.seq (Tags.obsIter.seq
    ((Tags.callback env i).seq (Tags.stopIfTarget.seq (Tags.save env))))))

theorem Emit.singlePar (env : Env n) (i : Nat) (p : Pt n) (v : F64) :
    Emit (Act.singlePar env i p v) [(false, i), (true, i)] := by
  intro m
  unfold Act.singlePar
  exact (Emit.begin ((Tags.setThreshold v).seq (Tags.search fun s e => Tags.process fun _ =>
    Tags.obs.seq (Tags.obsIter.seq ((Tags.invoke env _).seq (Tags.stopIfTarget.seq (Tags.save env))))))) m

/-- The numbers in a list of marks lie between `lo` and `hi`, and no search comes after a checkpoint
whose number is larger by `d` or more. -/
structure Ordered (d lo hi : Nat) (t : List (Bool × Nat)) : Prop where
  range : ∀ x ∈ t, lo ≤ x.2 ∧ x.2 < hi
  order : t.Pairwise fun x y => x.1 = true → y.1 = false → x.2 < y.2 + d

theorem Ordered.of_range {d lo hi : Nat} {t : List (Bool × Nat)} (h : ∀ x ∈ t, lo ≤ x.2 ∧ x.2 < hi)
    (hd : hi ≤ lo + d) : Ordered d lo hi t :=
  ⟨h, List.Pairwise.imp_of_mem (R := fun _ _ => True) (fun {a b} ha hb _ _ _ => by
    have := h a ha; have := h b hb; omega) (List.pairwise_of_forall fun _ _ => trivial)⟩

theorem Ordered.append {d lo mid hi : Nat} {a b : List (Bool × Nat)} (ha : Ordered d lo mid a)
    (hb : Ordered d mid hi b) (h1 : lo ≤ mid) (h2 : mid ≤ hi) : Ordered d lo hi (a ++ b) := by
  refine ⟨fun x hx => ?_, ?_⟩
  · rcases List.mem_append.1 hx with h | h
    · have := ha.range x h; omega
    · have := hb.range x h; omega
  · rw [List.pairwise_append]
    refine ⟨ha.order, hb.order, fun x hx y hy _ _ => ?_⟩
    have := ha.range x hx; have := hb.range y hy; omega

theorem Ordered.nil {d lo hi : Nat} : Ordered d lo hi [] := ⟨by simp, by simp⟩

theorem localsPar_range (env : Env n) (first lo hi : Nat) (cands : List (Nat × Pt n × F64))
    (h : ∀ c ∈ cands, lo ≤ c.1 ∧ c.1 < hi) (m : M n) :
    ∃ t, (Act.localsPar env first cands m).1.trace = m.trace ++ t ∧ ∀ x ∈ tags t, lo ≤ x.2 ∧ x.2 < hi := by
  unfold Act.localsPar
  split
  · unfold Act.groupPar
    have hs : ∀ x ∈ tags (cands.map (Act.solveEvent env m.opt)), lo ≤ x.2 ∧ x.2 < hi := by
      intro x hx
      unfold tags at hx
      rw [List.mem_filterMap] at hx
      obtain ⟨e, he, hx⟩ := hx
      rw [List.mem_map] at he
      obtain ⟨c, hc, rfl⟩ := he
      cases hx
      exact h c hc
    split
    · exact ⟨_, rfl, hs⟩
    · rename_i rs hrs
      obtain ⟨t, a, b⟩ := Emit.all rs (fun r => Act.resultPar env r.1 r.2.1 r.2.2.1 r.2.2.2)
        (fun r => [(true, r.1)]) (fun r _ => Emit.resultPar env _ _ _ _)
        { m with trace := m.trace ++ cands.map (Act.solveEvent env m.opt) }
      refine ⟨cands.map (Act.solveEvent env m.opt) ++ t, by rw [a, List.append_assoc], fun x hx => ?_⟩
      rw [tags_append] at hx
      rcases List.mem_append.1 hx with hx | hx
      · exact hs x hx
      · have hx := b.subset hx
        rw [List.mem_flatMap] at hx
        obtain ⟨r, hr, hx⟩ := hx
        rw [List.mem_singleton] at hx
        subst hx
        have hok := parCollect_ok hrs
        have : Except.ok r ∈ rs.map (Except.ok (ε := Err)) := List.mem_map_of_mem hr
        rw [← hok, List.mem_map] at this
        obtain ⟨c, hc, he⟩ := this
        unfold Act.solveTask at he
        split at he
        · cases he
        · cases he; exact h c hc
  · obtain ⟨t, a, b⟩ := Emit.all cands (fun c => Act.singlePar env c.1 c.2.1 c.2.2)
      (fun c => [(false, c.1), (true, c.1)]) (fun r _ => Emit.singlePar env _ _ _) m
    refine ⟨t, a, fun x hx => ?_⟩
    have hx := b.subset hx
    rw [List.mem_flatMap] at hx
    obtain ⟨c, hc, hx⟩ := hx
    have := h c hc
    simp only [List.mem_cons, List.not_mem_nil, or_false] at hx
    rcases hx with rfl | rfl <;> exact this

theorem batchPar_range (env : Env n) (objs : Option (List F64)) (lo hi : Nat) (its : List (Nat × Pt n))
    (h : ∀ it ∈ its, lo ≤ it.1 ∧ it.1 < hi) (m : M n) :
    ∃ t, (Act.batchParItems env objs its m).1.trace = m.trace ++ t ∧ ∀ x ∈ tags t, lo ≤ x.2 ∧ x.2 < hi := by
  cases its with
  | nil => exact ⟨[], by simp [Act.batchParItems, Act.skip], by simp [tags]⟩
  | cons it0 its =>
    unfold Act.batchParItems
    have hlog : ∃ t, (Act.logEvals objs (it0 :: its) m).trace = m.trace ++ t ∧ tags t = [] := by
      unfold Act.logEvals
      split
      · refine ⟨_, rfl, ?_⟩
        unfold tags
        rw [List.filterMap_eq_nil_iff]
        intro e he
        rw [List.mem_map] at he
        obtain ⟨_, _, rfl⟩ := he
        rfl
      · exact ⟨[], by simp, rfl⟩
    obtain ⟨t0, e1, e2⟩ := hlog
    dsimp only
    split
    · exact ⟨t0, e1, by rw [e2]; simp⟩
    · rename_i vals hv
      have hvals : ∀ c ∈ vals, lo ≤ c.1 ∧ c.1 < hi := by
        intro c hc
        have hok := parCollect_ok hv
        have : Except.ok c ∈ vals.map (Except.ok (ε := Err)) := List.mem_map_of_mem hc
        rw [← hok, List.mem_map] at this
        obtain ⟨it, hit, he⟩ := this
        unfold Act.evalTask at he
        cases hmv : Act.meritValue m.opt objs it.1 it.2 with
        | error e => rw [hmv] at he; cases he
        | ok v => rw [hmv] at he; cases he; exact h it hit
      generalize Act.logEvals objs (it0 :: its) m = m1 at *
      unfold Act.afterEval
      have hq : Emit (if objs.isNone = true then Act.obsEvals (n := n) vals.length else Act.skip) [] := by
        split
        · exact Emit.same fun _ => rfl
        · exact Emit.same fun _ => rfl
      have hquick := Emit.all (vals.filter fun c => !Act.passes m1.opt c)
        (fun c => Act.quickPar env c.1) (fun c => [(true, c.1)]) (fun c _ => Emit.quickPar env c.1)
      generalize (if objs.isNone = true then Act.obsEvals (n := n) vals.length else Act.skip) = q at *
      have hcomp : ∃ t, ((q ;;
          Act.all ((vals.filter fun c => !Act.passes m1.opt c).map fun c => Act.quickPar env c.1) ;;
          Act.localsPar env it0.1 (vals.filter (Act.passes m1.opt)))
          { m1 with trace := m1.trace ++ (vals.map fun c =>
            Event.examine c.1 c.2.1 c.2.2 (Act.passes m1.opt c)) }).1.trace =
          (m1.trace ++ vals.map fun c => Event.examine c.1 c.2.1 c.2.2 (Act.passes m1.opt c)) ++ t ∧
          ∀ x ∈ tags t, lo ≤ x.2 ∧ x.2 < hi := by
        generalize hm2 : ({ m1 with trace := m1.trace ++ (vals.map fun c =>
            Event.examine c.1 c.2.1 c.2.2 (Act.passes m1.opt c)) } : M n) = m2
        have htr : m2.trace = m1.trace ++ vals.map fun c =>
            Event.examine c.1 c.2.1 c.2.2 (Act.passes m1.opt c) := by rw [← hm2]
        rw [← htr]
        rw [Act.seq_def]
        obtain ⟨t1, a1, b1⟩ := hq m2
        have b1 : tags t1 = [] := List.sublist_nil.1 b1
        split
        · rw [Act.seq_def]
          obtain ⟨t2, a2, b2⟩ := hquick (q m2).1
          have hr2 : ∀ x ∈ tags t2, lo ≤ x.2 ∧ x.2 < hi := by
            intro x hx
            have hx := b2.subset hx
            rw [List.mem_flatMap] at hx
            obtain ⟨c, hc, hx⟩ := hx
            rw [List.mem_singleton] at hx
            subst hx
            exact hvals c ((List.mem_filter.1 hc).1)
          split
          · obtain ⟨t3, a3, b3⟩ := localsPar_range env it0.1 lo hi (vals.filter (Act.passes m1.opt))
              (fun c hc => hvals c ((List.mem_filter.1 hc).1))
              (Act.all ((vals.filter fun c => !Act.passes m1.opt c).map fun c => Act.quickPar env c.1)
                (q m2).1).1
            refine ⟨t1 ++ t2 ++ t3, by rw [a3, a2, a1]; simp [List.append_assoc], fun x hx => ?_⟩
            rw [tags_append, tags_append, b1, List.nil_append] at hx
            rcases List.mem_append.1 hx with hx | hx
            · exact hr2 x hx
            · exact b3 x hx
          · refine ⟨t1 ++ t2, by rw [a2, a1, List.append_assoc], fun x hx => ?_⟩
            rw [tags_append, b1, List.nil_append] at hx
            exact hr2 x hx
        · exact ⟨t1, a1, by rw [b1]; simp⟩
      obtain ⟨t, a, b⟩ := hcomp
      refine ⟨t0 ++ (vals.map fun c => Event.examine c.1 c.2.1 c.2.2 (Act.passes m1.opt c)) ++ t,
        by rw [a, e1]; simp [List.append_assoc], fun x hx => ?_⟩
      have hex : tags (vals.map fun c => Event.examine c.1 c.2.1 c.2.2 (Act.passes m1.opt c)) = [] := by
        unfold tags
        rw [List.filterMap_eq_nil_iff]
        intro e he
        rw [List.mem_map] at he
        obtain ⟨_, _, rfl⟩ := he
        rfl
      rw [tags_append, tags_append, e2, hex, List.nil_append, List.nil_append] at hx
      exact b x hx

/-- The lag between checkpoints and local searches: none in sequential mode, below the batch size
otherwise. -/
def lag (eff : Nat) : Nat := if 1 < eff then eff else 0

theorem procBatch_ordered (env : Env n) (r : Bool) (st : Nat) (objs : Option (List F64)) (eff lo : Nat)
    (b : List (Nat × Pt n)) (hb : b.map Prod.fst = List.range' lo b.length) (hlen : b.length ≤ eff)
    (m : M n) : ∃ t, (Act.procBatch env r st objs eff b m).1.trace = m.trace ++ t ∧
      Ordered (lag eff) lo (lo + b.length) (tags t) := by
  have hr : ∀ it ∈ b, lo ≤ it.1 ∧ it.1 < lo + b.length := by
    intro it hit
    have : it.1 ∈ b.map Prod.fst := List.mem_map_of_mem hit
    rw [hb, List.mem_range'_1] at this
    exact this
  unfold Act.procBatch
  split
  · rename_i he
    unfold Act.batchPar
    obtain ⟨t, a, h⟩ := batchPar_range env objs lo (lo + b.length)
      (if r = true then b.filter (fun it => st ≤ it.1) else b) (fun it hit => by
        split at hit
        · exact hr it ((List.mem_filter.1 hit).1)
        · exact hr it hit) m
    exact ⟨t, a, Ordered.of_range h (by unfold lag; rw [if_pos he]; omega)⟩
  · rename_i he
    unfold Act.batchSeq
    obtain ⟨t, a, h⟩ := Emit.all b (Act.stepSeq env r st objs) (fun it => [(false, it.1), (true, it.1)])
      (fun it _ => Emit.stepSeq env r st objs it) m
    refine ⟨t, a, ?_⟩
    match b, hb, hlen, h, hr with
    | [], _, _, h, _ =>
      have : tags t = [] := List.sublist_nil.1 h
      rw [this]; exact Ordered.nil
    | [it], _, _, h, hr =>
      have h : (tags t).Sublist [(false, it.1), (true, it.1)] := h
      have hi := hr it (by simp)
      refine ⟨fun x hx => ?_, List.Pairwise.sublist h ?_⟩
      · have hx := h.subset hx
        simp only [List.mem_cons, List.not_mem_nil, or_false] at hx
        rcases hx with rfl | rfl <;> exact hi
      · simp
    | _ :: _ :: _, _, hlen, _, _ =>
      simp only [List.length_cons] at hlen
      omega

theorem loop_ordered (env : Env n) (r : Bool) (st : Nat) (objs : Option (List F64)) (eff k lo : Nat)
    (bs : List (List (Nat × Pt n))) (hb : bs.flatten.map Prod.fst = List.range' lo bs.flatten.length)
    (hlen : ∀ b ∈ bs, b.length ≤ eff) (m : M n) :
    ∃ t, (Act.loop env r st objs eff k bs m).1.trace = m.trace ++ t ∧
      Ordered (lag eff) lo (lo + bs.flatten.length) (tags t) := by
  induction bs generalizing k m lo with
  | nil => exact ⟨[], by simp [Act.loop, Act.skip], Ordered.nil⟩
  | cons b bs ih =>
    rw [List.flatten_cons, List.map_append, List.length_append, ← List.range'_append_1] at hb
    obtain ⟨hb1, hb2⟩ := List.append_inj hb (by simp)
    unfold Act.loop
    rw [List.flatten_cons, List.length_append]
    split
    · exact ⟨[], by simp, Ordered.nil⟩
    · obtain ⟨t, a, h⟩ := procBatch_ordered env r st objs eff lo b hb1 (hlen b (by simp)) m
      have hw : Ordered (lag eff) lo (lo + (b.length + bs.flatten.length)) (tags t) :=
        ⟨fun x hx => by have := h.range x hx; omega, h.order⟩
      split
      · rename_i m' e he
        rw [he] at a
        exact ⟨t, a, hw⟩
      · rename_i m' out _ he
        rw [he] at a
        split
        · exact ⟨t, a, hw⟩
        · obtain ⟨t', a', h'⟩ := ih (k + 1) (lo + b.length) hb2 (fun x hx => hlen x (by simp [hx])) m'
          refine ⟨t ++ t', by rw [a', a, List.append_assoc], ?_⟩
          rw [tags_append]
          have := h.append h' (by omega) (by omega)
          rw [Nat.add_assoc] at this
          exact this

/-- The order of stage 2: no search follows a checkpoint whose number is larger by `lag` or more. -/
def SaveOrder (d : Nat) (t : List (Event n)) : Prop :=
  (tags t).Pairwise fun x y => x.1 = true → y.1 = false → x.2 < y.2 + d

theorem stage2Main_order (env : Env n) (r : Bool) (st : Nat) (ref : List (Pt n))
    (objs : Option (List F64)) (m : M n) : ∃ t, (Act.stage2Main env r st ref objs m).1.trace =
      m.trace ++ t ∧ SaveOrder (lag (m.opt.effBatch env.threads st)) t := by
  unfold Act.stage2Main
  split
  · exact ⟨[], by simp, by simp [SaveOrder, tags]⟩
  · rename_i he
    have hfl := chunks_flatten (m.opt.effBatch env.threads st) (by omega)
      (Act.items m.opt.params.iterations st ref)
    obtain ⟨t, a, h⟩ := loop_ordered env r st objs (m.opt.effBatch env.threads st) 0 st
      (chunks (m.opt.effBatch env.threads st) (Act.items m.opt.params.iterations st ref))
      (by
        rw [hfl, items_iters, items_length, List.range_eq_range', List.drop_range']
        simp) (chunksF_length _ _ _) m
    rw [Act.seq_def]
    have hfin : ∀ m' : M n, ∃ t', ((Act.obsEnd2 env ;; Act.saveFinal env) m').1.trace = m'.trace ++ t' ∧
        ∀ x ∈ tags t', x.1 = true := by
      intro m'
      rw [Act.seq_def, if_pos (show (Act.obsEnd2 env m').2 = Out.cont from rfl)]
      unfold Act.saveFinal
      split
      · exact ⟨[], by simp [Act.obsEnd2, Act.modify], by simp [tags]⟩
      · obtain ⟨_, t', a', b'⟩ := Tags.writeCkpt env (Act.obsEnd2 env m').1 rfl
        refine ⟨t', a', fun x hx => ?_⟩
        have := b'.subset hx
        rw [List.mem_singleton] at this
        rw [this]
    split
    · obtain ⟨t', a', b'⟩ := hfin (Act.loop env r st objs (m.opt.effBatch env.threads st) 0
        (chunks (m.opt.effBatch env.threads st) (Act.items m.opt.params.iterations st ref)) m).1
      refine ⟨t ++ t', by rw [a', a, List.append_assoc], ?_⟩
      unfold SaveOrder
      rw [tags_append, List.pairwise_append]
      refine ⟨h.order, ?_, fun x _ y hy _ h2 => ?_⟩
      · exact List.Pairwise.imp_of_mem (R := fun _ _ => True) (fun {a b} _ hb' _ _ h2 => by
          rw [b' b hb'] at h2; cases h2) (List.pairwise_of_forall fun _ _ => trivial)
      · rw [b' y hy] at h2; cases h2
    · exact ⟨t, a, h.order⟩

theorem Emit.obs {f : Opt n → Obs n → Obs n} : Emit (Act.modify fun o => o.mapObs (f o)) [] :=
  Emit.same fun _ => rfl

theorem Emit.invoke (env : Env n) (k : Nat) : Emit (Act.invoke env k) [] := fun m =>
  (Tags.invoke env k m rfl).2

theorem Emit.obsScatter (env : Env n) (r : Scatter.Result n) : Emit (Act.obsScatter env r) [] :=
  Emit.obs.seq ((Emit.invoke env _).seq (Emit.obs.seq ((Emit.invoke env _).seq
    (Emit.obs.seq (Emit.invoke env _)))))

theorem Emit.stage1Local (env : Env n) (p : Pt n) (ref : List (Pt n)) :
    Emit (Act.stage1Local env p ref) [] := by
  intro m
  unfold Act.stage1Local
  split
  · exact ⟨[_], rfl, by simp [tags, Event.tag]⟩
  · rename_i s evals _
    have hend : Tags m.opt.curIter (Act.obsEnd1 env) [] :=
      Tags.obs.seq ((Tags.invoke env _).seq Tags.obs)
    have hb : Tags m.opt.curIter (Act.setThreshold s.objective ;;
      Act.obsLocal1 env s (if m.opt.tracks1 = true then evals else 0) ;;
      Act.process s fun _ => fun m' =>
        if m'.opt.targetReached then (Act.obsEnd1 env ;; fun m'' => (m'', .stop)) m'
        else (Act.storeRef ref ;; Act.obsEnd1 env) m') [] := by
      have hl : Tags m.opt.curIter (Act.obsLocal1 env s (if m.opt.tracks1 = true then evals else 0)) [] :=
        Tags.obs.seq (Tags.invoke env _)
      refine (Tags.setThreshold _).seq (L' := []) (hl.seq (L' := []) (Tags.process fun _ => ?_))
      intro m' hm'
      dsimp only
      split
      · exact (hend.seq (L' := []) (Tags.same (fun _ => rfl) fun _ => rfl)) m' hm'
      · exact (Tags.seq (L := []) (Tags.same (fun _ => rfl) fun _ => rfl) hend) m' hm'
    obtain ⟨_, t, a, b⟩ := hb { m with trace := m.trace ++ [.search none p (.ok s)] } rfl
    exact ⟨.search none p (.ok s) :: t, by rw [a]; simp, b⟩

/-- A silent beginning does not change the order. -/
theorem order_seq {a b : Act n} {env : Env n} {st E : Nat} (ha : Emit a []) (hst : Steps env a)
    (hb : ∀ m, m.opt.effBatch env.threads st = E → ∃ t, (b m).1.trace = m.trace ++ t ∧
      SaveOrder (lag E) t) (m : M n) (hm : m.opt.effBatch env.threads st = E) :
    ∃ t, ((a ;; b) m).1.trace = m.trace ++ t ∧ SaveOrder (lag E) t := by
  rw [Act.seq_def]
  obtain ⟨t, h1, h2⟩ := ha m
  have h2 : tags t = [] := List.sublist_nil.1 h2
  have hc := (hst m).cfg
  split
  · obtain ⟨t', k1, k2⟩ := hb (a m).1 (by
      rw [← hm]; unfold Opt.effBatch; rw [hc.par, hc.batch, hc.params])
    exact ⟨t ++ t', by rw [k1, h1, List.append_assoc], by
      unfold SaveOrder; rw [tags_append, h2, List.nil_append]; exact k2⟩
  · exact ⟨t, h1, by unfold SaveOrder; rw [h2]; exact List.Pairwise.nil⟩

theorem body_fresh_order (env : Env n) (m : M n) : ∃ t, (Act.body env false m).1.trace = m.trace ++ t ∧
    SaveOrder (lag (m.opt.effBatch env.threads 0)) t := by
  unfold Act.body
  rw [if_neg (by simp)]
  unfold Act.stage1
  split
  · exact ⟨[], by simp, List.Pairwise.nil⟩
  · rename_i r hr
    have hb : Emit (if m.opt.tracks1 = true then Act.obsScatter env r else Act.skip) [] := by
      split
      · exact Emit.obsScatter env r
      · exact Emit.same fun _ => rfl
    have hs : Steps env (if m.opt.tracks1 = true then Act.obsScatter env r else Act.skip) := by
      split
      · exact Steps.obsScatter env r
      · exact Steps.skip env
    refine order_seq (env := env) (st := 0) (a := Act.log (.scatter r.evals))
      (fun m => (Tags.log rfl m rfl).2) (Steps.log rfl rfl) ?_ m rfl
    refine order_seq hb hs ?_
    refine order_seq (env := env) (Emit.obs.seq ((Emit.invoke env _).seq Emit.obs))
      (Steps.obsScatterDone env _ _) ?_
    refine order_seq (env := env) (Emit.stage1Local env _ _) (Steps.stage1Local env _ _) ?_
    refine order_seq (env := env) (a := fun m => ({ m with uc := 0 }, .cont)) (Emit.same fun _ => rfl)
      (fun m => Relation.ReflTransGen.single (Prim.uc m 0)) ?_
    unfold Act.stage2
    refine order_seq (env := env) Emit.obs Steps.obs ?_
    intro m hm
    rw [if_neg (by simp)]
    split
    · exact ⟨[], by simp, List.Pairwise.nil⟩
    · rename_i sd _
      refine order_seq (env := env) (st := 0) (a := Act.setSeed sd) (Emit.same fun _ => rfl)
        (Steps.setSeed env sd) ?_ m hm
      intro m hm
      rw [← hm]
      exact stage2Main_order env false 0 _ _ m

theorem body_resumed_order (env : Env n) (m : M n) : ∃ t, (Act.body env true m).1.trace = m.trace ++ t ∧
    SaveOrder (lag (m.opt.effBatch env.threads m.opt.curIter)) t := by
  unfold Act.body
  rw [if_pos rfl]
  unfold Act.stage2
  rw [Act.seq_def, if_pos (show (Act.obsStart2 env { m with uc := m.opt.unchanged }).2 = Out.cont from rfl)]
  rw [if_pos rfl]
  exact stage2Main_order env true m.opt.curIter _ _ (Act.obsStart2 env { m with uc := m.opt.unchanged }).1

end GS
