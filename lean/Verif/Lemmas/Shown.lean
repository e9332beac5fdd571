/- What callbacks are shown about stage 2. -/
import Verif.Lemmas.Metrics

namespace GS
open F64
variable {n : Nat}

/-- The solution set after an event. -/
def setStep (set : Option (List (Sol n))) : Event n → Option (List (Sol n))
  | .processed s v => if v = .panic then set else newSet v set s
  | _ => set

/-- The solution set after a list of events. -/
def setAfter (set : Option (List (Sol n))) (t : List (Event n)) : Option (List (Sol n)) := t.foldl setStep set

theorem setAfter_append (set : Option (List (Sol n))) (a b : List (Event n)) :
    setAfter set (a ++ b) = setAfter (setAfter set a) b := List.foldl_append

theorem setAfter_idle (set : Option (List (Sol n))) (t : List (Event n))
    (h : ∀ e ∈ t, e.calm = true ∨ Event.work e = true) : setAfter set t = set := by
  induction t with
  | nil => rfl
  | cons e t ih =>
    rw [show e :: t = [e] ++ t from rfl, setAfter_append, show setAfter set [e] = set from ?_]
    · exact ih fun x hx => h x (by simp [hx])
    · have := h e (by simp)
      cases e with
      | processed => rcases this with h | h <;> cases h
      | _ => rfl

/-- The numbers agree with the solution set. -/
def Fits (s : Stage2 n) (set : Option (List (Sol n))) : Prop := ∀ l, set = some l →
  s.solutionSetSize = l.length ∧ ∀ x, bestSolution l = some x →
    F64.lt x.objective s.bestObjective = false ∧ (s.bestObjective.isNaN = true → x.objective.isNaN = true)

/-- The best solution shown is the earlier one or was the best of the set at some time. -/
def BestFrom (set : Option (List (Sol n))) (s : Stage2 n) (t : List (Event n)) (s' : Stage2 n) : Prop :=
  (s'.bestObjective = s.bestObjective ∧ s'.bestPoint = s.bestPoint) ∨
  ∃ a l x, a <+: t ∧ setAfter set a = some l ∧ bestSolution l = some x ∧
    s'.bestObjective = x.objective ∧ s'.bestPoint = some x.point

/-- The numbers `s'` follow from the numbers `s` by the events `t`. -/
structure Told (set : Option (List (Sol n))) (s : Stage2 n) (t : List (Event n)) (s' : Stage2 n) : Prop where
  calls : s'.localCalls = s.localCalls + nProc t
  improved : s'.improvedCalls = s.improvedCalls + nRet t
  fits : Fits s set → Fits s' (setAfter set t)
  best : BestFrom set s t s'

theorem Told.trans {set : Option (List (Sol n))} {s s1 s2 : Stage2 n} {t u : List (Event n)}
    (h : Told set s t s1) (k : Told (setAfter set t) s1 u s2) : Told set s (t ++ u) s2 where
  calls := by rw [k.calls, h.calls, nProc_append]; omega
  improved := by rw [k.improved, h.improved, nRet_append]; omega
  fits := fun hf => by rw [setAfter_append]; exact k.fits (h.fits hf)
  best := by
    rcases k.best with ⟨k1, k2⟩ | ⟨a, l, x, ⟨c, hc⟩, h1, h2, h3, h4⟩
    · rcases h.best with ⟨h1, h2⟩ | ⟨a, l, x, ⟨c, hc⟩, h1, h2, h3, h4⟩
      · exact Or.inl ⟨k1.trans h1, k2.trans h2⟩
      · exact Or.inr ⟨a, l, x, ⟨c ++ u, by rw [← List.append_assoc, hc]⟩, h1, h2, k1.trans h3, k2.trans h4⟩
    · exact Or.inr ⟨t ++ a, l, x, ⟨c, by rw [List.append_assoc, hc]⟩, by rw [setAfter_append]; exact h1,
        h2, h3, h4⟩

theorem Told.same (set : Option (List (Sol n))) (s s' : Stage2 n) (t : List (Event n))
    (ht : ∀ e ∈ t, e.calm = true ∨ Event.work e = true)
    (h1 : s'.localCalls = s.localCalls) (h2 : s'.improvedCalls = s.improvedCalls)
    (h3 : s'.solutionSetSize = s.solutionSetSize) (h4 : s'.bestObjective = s.bestObjective)
    (h5 : s'.bestPoint = s.bestPoint) : Told set s t s' := by
  have hz : nProc t = 0 ∧ nRet t = 0 := by
    unfold nProc nRet
    constructor <;>
    · rw [List.countP_eq_zero]
      intro e he
      have := ht e he
      cases e with
      | processed => rcases this with h | h <;> cases h
      | _ => simp
  refine ⟨by rw [h1, hz.1]; rfl, by rw [h2, hz.2]; rfl, fun hf => ?_, Or.inl ⟨h4, h5⟩⟩
  rw [setAfter_idle _ _ ht]
  intro l hl
  rw [h3, h4]
  exact hf l hl

/-- Callbacks are shown numbers that follow from the events so far. -/
def Cbs (m m' : M n) : Prop :=
  ∃ t, m'.trace = m.trace ++ t ∧ m'.opt.solset = setAfter m.opt.solset t ∧ ∀ s, m.seen2 = some s →
    (∃ s', m'.seen2 = some s' ∧ Told m.opt.solset s t s') ∧
    ∀ a k seen w c, t = a ++ .callback k seen w :: c → ∃ s1, seen.seen2 = some s1 ∧ Told m.opt.solset s a s1

theorem Cbs.trans {a b c : M n} (h : Cbs a b) (k : Cbs b c) : Cbs a c := by
  obtain ⟨t, ht, hs, h⟩ := h
  obtain ⟨u, hu, ks, k⟩ := k
  refine ⟨t ++ u, by rw [hu, ht, List.append_assoc], by rw [ks, hs, setAfter_append], fun s hse => ?_⟩
  obtain ⟨⟨s1, h0, h1⟩, h2⟩ := h s hse
  obtain ⟨⟨s2, k0, k1⟩, k2⟩ := k s1 h0
  rw [hs] at k1 k2
  refine ⟨⟨s2, k0, h1.trans k1⟩, fun x j seen v y he => ?_⟩
  rcases List.append_eq_append_iff.1 he with ⟨w, h3, h4⟩ | ⟨w, h3, h4⟩
  · obtain ⟨s3, l0, l1⟩ := k2 w j seen v y h4
    exact ⟨s3, l0, h3 ▸ h1.trans l1⟩
  · cases w with
    | nil =>
      rw [List.append_nil] at h3
      obtain ⟨s3, l0, l1⟩ := k2 [] j seen v y h4.symm
      exact ⟨s3, l0, by have := h1.trans l1; rwa [List.append_nil, h3] at this⟩
    | cons e w =>
      rw [List.cons_append] at h4
      obtain ⟨rfl, _⟩ := List.cons.inj h4
      exact h2 x j seen v w h3

theorem cbs_quiet (m m' : M n) (ho : m'.opt.obs = m.opt.obs) (hs : m'.opt.solset = m.opt.solset)
    (t : List (Event n)) (ht : m'.trace = m.trace ++ t)
    (hc : ∀ e ∈ t, e.calm = true ∨ Event.work e = true) : Cbs m m' := by
  refine ⟨t, ht, by rw [hs, setAfter_idle _ _ hc], fun s h => ⟨⟨s, ?_, Told.same _ _ _ _ hc rfl rfl rfl rfl rfl⟩,
    fun a k seen w c he => ?_⟩⟩
  · unfold M.seen2 at h ⊢
    rw [ho]; exact h
  · have := hc (.callback k seen w) (by rw [he]; simp)
    rcases this with h | h <;> cases h

theorem cbs_obs (m : M n) (g : Obs n → Obs n) (f : Stage2 n → Stage2 n)
    (hg : ∀ b, (g b).seen2 = b.seen2.map f)
    (h : ∀ s, (f s).localCalls = s.localCalls ∧ (f s).improvedCalls = s.improvedCalls ∧
      (f s).solutionSetSize = s.solutionSetSize ∧ (f s).bestObjective = s.bestObjective ∧
      (f s).bestPoint = s.bestPoint) : Cbs m { m with opt := m.opt.mapObs g } := by
  refine ⟨[], by simp, rfl, fun s hs => ⟨⟨f s, ?_, ?_⟩, fun a k seen w c he => by simp at he⟩⟩
  · unfold M.seen2 Opt.mapObs at *
    dsimp only
    cases ho : m.opt.obs with
    | none => rw [ho] at hs; cases hs
    | some b =>
      rw [ho] at hs
      have hs : b.seen2 = some s := hs
      exact (hg b).trans (by rw [hs]; rfl)
  · obtain ⟨h1, h2, h3, h4, h5⟩ := h s
    exact Told.same _ _ _ _ (by simp) h1 h2 h3 h4 h5

theorem cbs_inv {env : Env n} (ht : Tame env) (k : Nat) (m : M n) : Cbs m (Act.invoke env k m).1 := by
  unfold Act.invoke
  split
  · exact cbs_quiet m m rfl rfl [] (by simp) (by simp)
  · rename_i b hb
    obtain ⟨p, hp⟩ := invoke_prev ht k b
    rw [hp]
    dsimp only
    by_cases hc : b.callback.isSome = true
    · rw [if_pos hc]
      refine ⟨[.callback k b (m.opt.merit.threshold, m.uc)], rfl, rfl, fun s hs => ?_⟩
      unfold M.seen2 at hs
      rw [hb] at hs
      have hs : b.seen2 = some s := hs
      have hz : ∀ (e : Event n), e ∈ ([] : List (Event n)) → e.calm = true ∨ Event.work e = true := by simp
      have ht := Told.same m.opt.solset s s [] hz rfl rfl rfl rfl rfl
      refine ⟨⟨s, hs, ⟨ht.calls, ht.improved, ht.fits, Or.inl ⟨rfl, rfl⟩⟩⟩, fun a j seen w c he => ?_⟩
      cases a with
      | nil =>
        rw [List.nil_append] at he
        obtain ⟨h1, _⟩ := List.cons.inj he
        cases h1
        exact ⟨s, hs, ht⟩
      | cons e a => simp at he
    · rw [if_neg hc]
      refine ⟨[], by simp, rfl, fun s hs => ⟨⟨s, ?_, Told.same _ _ _ _ (by simp) rfl rfl rfl rfl rfl⟩,
        fun a k seen w c he => by simp at he⟩⟩
      unfold M.seen2 at *
      rw [hb] at hs
      exact hs

theorem setBest_not_lt (s : Stage2 n) (v : F64) (p : Pt n) :
    F64.lt v (s.setBest v p).bestObjective = false ∧
      ((s.setBest v p).bestObjective.isNaN = true → v.isNaN = true) := by
  unfold Stage2.setBest
  split
  · exact ⟨F64.lt_irrefl' v, id⟩
  · rename_i h
    rw [Bool.or_eq_true, not_or] at h
    exact ⟨by simpa using h.2, fun hn => absurd hn h.1⟩

theorem addLocalCall_rest (s : Stage2 n) (added : Bool) (k : Nat) :
    let s' := (s.addLocalCall added).addEvals k
    s'.localCalls = s.localCalls + 1 ∧ s'.improvedCalls = s.improvedCalls + (if added then 1 else 0) ∧
      s'.bestObjective = s.bestObjective ∧ s'.bestPoint = s.bestPoint := by
  cases added <;> exact ⟨rfl, rfl, rfl, rfl⟩

/-- The numbers of the solution set. -/
def Stage2.ofSet (s : Stage2 n) (set : Option (List (Sol n))) : Stage2 n :=
  match set with
  | none => s
  | some l =>
    let s := match bestSolution l with
      | some best => s.setBest best.objective best.point
      | none => s
    s.setSize l.length

theorem setBest_rest (s : Stage2 n) (v : F64) (p : Pt n) :
    (s.setBest v p).localCalls = s.localCalls ∧ (s.setBest v p).improvedCalls = s.improvedCalls ∧
      (((s.setBest v p).bestObjective = s.bestObjective ∧ (s.setBest v p).bestPoint = s.bestPoint) ∨
        ((s.setBest v p).bestObjective = v ∧ (s.setBest v p).bestPoint = some p)) := by
  unfold Stage2.setBest
  split
  · exact ⟨rfl, rfl, Or.inr ⟨rfl, rfl⟩⟩
  · exact ⟨rfl, rfl, Or.inl ⟨rfl, rfl⟩⟩

theorem ofSet_rest (s : Stage2 n) (set : Option (List (Sol n))) :
    (s.ofSet set).localCalls = s.localCalls ∧ (s.ofSet set).improvedCalls = s.improvedCalls ∧
      Fits (s.ofSet set) set ∧
      (((s.ofSet set).bestObjective = s.bestObjective ∧ (s.ofSet set).bestPoint = s.bestPoint) ∨
        ∃ l x, set = some l ∧ bestSolution l = some x ∧ (s.ofSet set).bestObjective = x.objective ∧
          (s.ofSet set).bestPoint = some x.point) := by
  cases set with
  | none => exact ⟨rfl, rfl, (fun l hl => by cases hl), Or.inl ⟨rfl, rfl⟩⟩
  | some l =>
    unfold Stage2.ofSet
    dsimp only
    cases hb : bestSolution l with
    | none =>
      refine ⟨rfl, rfl, fun l' hl => ?_, Or.inl ⟨rfl, rfl⟩⟩
      cases hl
      exact ⟨rfl, fun x hx => by rw [hb] at hx; cases hx⟩
    | some best =>
      obtain ⟨h1, h2, h3⟩ := setBest_rest s best.objective best.point
      refine ⟨h1, h2, fun l' hl => ?_, ?_⟩
      · cases hl
        refine ⟨rfl, fun x hx => ?_⟩
        rw [hb] at hx
        cases hx
        exact setBest_not_lt s _ _
      · rcases h3 with h | ⟨h3, h4⟩
        · exact Or.inl h
        · exact Or.inr ⟨l, best, rfl, hb, h3, h4⟩

theorem process_solset (o : Opt n) (s : Sol n) (h : (o.process s).2 ≠ .panic) :
    (o.process s).1.solset = newSet (o.process s).2 o.solset s := by
  unfold Opt.process at h ⊢
  dsimp only at h ⊢
  split
  · rename_i hv
    rw [if_pos hv] at h
    exact absurd hv h
  · dsimp only [Opt.mapObs]
    split <;> split <;> rfl

theorem cbs_proc (s : Sol n) (k : Nat) : Resp true Cbs (Act.process s fun v => Act.obsLocal v.returned k) := by
  intro m hf
  unfold Act.process at hf ⊢
  dsimp only at hf ⊢
  by_cases hv : (m.opt.process s).2 = .panic
  · rw [if_pos hv] at hf
    exact absurd rfl (hf rfl _)
  · rw [if_neg hv]
    obtain ⟨g, hg, hg'⟩ := process_obs m.opt s
    have hset : (m.opt.process s).1.solset = setAfter m.opt.solset [.processed s (m.opt.process s).2] := by
      rw [process_solset _ _ hv]
      show _ = if _ then _ else _
      rw [if_neg hv]
    unfold Act.obsLocal Act.modify Opt.mapObs
    dsimp only
    refine ⟨[.processed s (m.opt.process s).2], rfl, hset, fun st hst => ⟨?_, fun a k seen w c he => ?_⟩⟩
    · unfold M.seen2 at hst ⊢
      dsimp only
      rw [hg]
      cases ho : m.opt.obs with
      | none => rw [ho] at hst; cases hst
      | some b =>
        rw [ho] at hst
        have hst : b.seen2 = some st := hst
        have hgs : ∃ st', (g b).seen2 = some st' ∧ st'.localCalls = st.localCalls ∧
            st'.improvedCalls = st.improvedCalls ∧ st'.bestObjective = st.bestObjective ∧
            st'.bestPoint = st.bestPoint := by
          rcases hg' with rfl | rfl
          · exact ⟨st, hst, rfl, rfl, rfl, rfl⟩
          · exact ⟨st.setLastAdded s.point, by rw [seen2_mod2, hst]; rfl, rfl, rfl, rfl, rfl⟩
        obtain ⟨st', h0, h1, h2, h4, h5⟩ := hgs
        simp only [Option.map_some, Option.bind_some, seen2_upd2, h0]
        refine ⟨_, rfl, ?_⟩
        show Told _ _ _ (((st'.addLocalCall (m.opt.process s).2.returned).addEvals k).ofSet
          (m.opt.process s).1.solset)
        obtain ⟨a1, a2, a3, a4⟩ := addLocalCall_rest st' (m.opt.process s).2.returned k
        generalize (st'.addLocalCall (m.opt.process s).2.returned).addEvals k = q at a1 a2 a3 a4
        obtain ⟨b1, b2, b3, b4⟩ := ofSet_rest q (m.opt.process s).1.solset
        refine ⟨by rw [b1, a1, h1]; rfl, ?_, fun _ => hset ▸ b3, ?_⟩
        · rw [b2, a2, h2]
          unfold nRet
          rw [List.countP_cons, List.countP_nil]; simp
        · rcases b4 with ⟨b4, b5⟩ | ⟨l, x, c1, c2, c3, c4⟩
          · exact Or.inl ⟨by rw [b4, a3, h4], by rw [b5, a4, h5]⟩
          · exact Or.inr ⟨_, l, x, List.prefix_refl _, hset ▸ c1, c2, c3, c4⟩
    · cases a with
      | nil => simp at he
      | cons e a => simp at he

theorem cbsTrack {env : Env n} (ht : Tame env) : TrackPar env true (Cbs (n := n)) where
  refl m := cbs_quiet m m rfl rfl [] (by simp) (by simp)
  trans := Cbs.trans
  quiet m m' _ ho hs h := by
    obtain ⟨t, h1, h2⟩ := h
    exact cbs_quiet m m' ho hs t h1 fun e he => Or.inl (h2 e he)
  iter i m _ := cbs_obs m _ _ (fun b => seen2_upd2 b _) fun _ => ⟨rfl, rfl, rfl, rfl, rfl⟩
  inv k m _ := cbs_inv ht k m
  end2 m _ := cbs_obs m _ _ (fun b => seen2_upd2 b _)
    fun s => by unfold Stage2.finish; split <;> exact ⟨rfl, rfl, rfl, rfl, rfl⟩
  work m es h := cbs_quiet m _ rfl rfl es rfl fun e he => Or.inr (h e he)
  evals k m _ := cbs_obs m _ _ (fun b => seen2_upd2 b _) fun _ => ⟨rfl, rfl, rfl, rfl, rfl⟩
  proc s k := cbs_proc s k

end GS
