/- C117: what Python prints about solutions and observers. -/
import Verif.Model.PyText
import Verif.Lemmas.Messages
import Verif.Props.Messages
import Verif.Props.PyObserver

namespace GS.Props
open GS GS.Py GS.Witness

/-! ### C117: text of Python objects -/

/-- Numbers are written as Rust writes them: `usize` in decimal, `f64` without comma, bracket or blank and so that it can be
read back (but for the bits of a NaN). Nothing is assumed about `{:.8e}`. A hypothesis of theorems; no counterpart in
/repo. -/
structure Legible (w : Py.Words) : Prop where
  nat : ∀ k, w.nat k = Name.decimal k
  disp : ∀ x y, w.disp x = w.disp y → x.blur = y.blur
  dbg : ∀ x y, w.dbg x = w.dbg y → x.blur = y.blur
  chars : ∀ x, ∀ c ∈ w.dbg x, c ≠ ',' ∧ c ≠ ']' ∧ c ≠ ' '
  some : ∀ x, w.dbg x ≠ []

/-- What can be read from a printed solution: all but the kinds of NaN. -/
def blurred (s : PySol) : List F64 × F64 := (s.point.map F64.blur, s.objective.blur)

theorem vecTail_head (w : Py.Words) (l : List F64) (r : List Char) :
    ∃ c t, vecTail w l ++ r = c :: t ∧ (c = ',' ∨ c = ']') := by
  cases l with
  | nil => exact ⟨']', r, rfl, .inr rfl⟩
  | cons x l => exact ⟨',', _, rfl, .inl rfl⟩

theorem dbg_cut {w : Py.Words} (hw : Legible w) {x y : F64} {r s : List Char}
    (hr : ∃ c t, r = c :: t ∧ (c = ',' ∨ c = ']' ∨ c = ' ')) (hs : ∃ c t, s = c :: t ∧ (c = ',' ∨ c = ']' ∨ c = ' '))
    (h : w.dbg x ++ r = w.dbg y ++ s) : x.blur = y.blur ∧ r = s := by
  obtain ⟨c, t, rfl, hc⟩ := hr
  obtain ⟨d, u, rfl, hd⟩ := hs
  obtain ⟨h1, h2⟩ := cut (p := fun c => c ≠ ',' ∧ c ≠ ']' ∧ c ≠ ' ') (hw.chars x) (hw.chars y)
    (by rcases hc with rfl | rfl | rfl <;> simp) (by rcases hd with rfl | rfl | rfl <;> simp) h
  exact ⟨hw.dbg x y h1, h2⟩

theorem vecTail_inj {w : Py.Words} (hw : Legible w) : ∀ (l l' : List F64) (r r' : List Char),
    vecTail w l ++ r = vecTail w l' ++ r' → l.map F64.blur = l'.map F64.blur ∧ r = r'
  | [], [], r, r', h => ⟨rfl, (List.cons.inj h).2⟩
  | [], y :: l', r, r', h => by
    have := (List.cons.inj h).1
    exact absurd this (by decide)
  | x :: l, [], r, r', h => by
    have := (List.cons.inj h).1
    exact absurd this (by decide)
  | x :: l, y :: l', r, r', h => by
    have h : (w.dbg x ++ vecTail w l) ++ r = (w.dbg y ++ vecTail w l') ++ r' := (List.cons.inj (List.cons.inj h).2).2
    rw [List.append_assoc, List.append_assoc] at h
    obtain ⟨c, t, e, hc⟩ := vecTail_head w l r
    obtain ⟨d, u, e', hd⟩ := vecTail_head w l' r'
    obtain ⟨h1, h2⟩ := dbg_cut hw ⟨c, t, e, hc.imp_right .inl⟩ ⟨d, u, e', hd.imp_right .inl⟩ h
    obtain ⟨h3, h4⟩ := vecTail_inj hw l l' r r' h2
    exact ⟨by rw [List.map_cons, List.map_cons, h1, h3], h4⟩

theorem dbg_head {w : Py.Words} (hw : Legible w) (x : F64) (r : List Char) :
    ∃ c t, w.dbg x ++ r = c :: t ∧ c ≠ ']' := by
  cases h : w.dbg x with
  | nil => exact absurd h (hw.some x)
  | cons c t => exact ⟨c, _, rfl, (hw.chars x c (by rw [h]; simp)).2.1⟩

theorem vec_inj {w : Py.Words} (hw : Legible w) (l l' : List F64) (r r' : List Char)
    (h : vec w l ++ r = vec w l' ++ r') : l.map F64.blur = l'.map F64.blur ∧ r = r' := by
  cases l with
  | nil =>
    cases l' with
    | nil => exact ⟨rfl, (List.cons.inj (List.cons.inj h).2).2⟩
    | cons y l' =>
      have h : [']'] ++ r = (w.dbg y ++ vecTail w l') ++ r' := (List.cons.inj h).2
      rw [List.append_assoc (w.dbg y)] at h
      obtain ⟨c, t, e, hc⟩ := dbg_head hw y (vecTail w l' ++ r')
      rw [e] at h
      exact absurd (List.cons.inj h).1.symm hc
  | cons x l =>
    cases l' with
    | nil =>
      have h : (w.dbg x ++ vecTail w l) ++ r = [']'] ++ r' := (List.cons.inj h).2
      rw [List.append_assoc (w.dbg x)] at h
      obtain ⟨c, t, e, hc⟩ := dbg_head hw x (vecTail w l ++ r)
      rw [e] at h
      exact absurd (List.cons.inj h).1 hc
    | cons y l' =>
      have h : (w.dbg x ++ vecTail w l) ++ r = (w.dbg y ++ vecTail w l') ++ r' := (List.cons.inj h).2
      rw [List.append_assoc, List.append_assoc] at h
      obtain ⟨c, t, e, hc⟩ := vecTail_head w l r
      obtain ⟨d, u, e', hd⟩ := vecTail_head w l' r'
      obtain ⟨h1, h2⟩ := dbg_cut hw ⟨c, t, e, hc.imp_right .inl⟩ ⟨d, u, e', hd.imp_right .inl⟩ h
      obtain ⟨h3, h4⟩ := vecTail_inj hw l l' r r' h2
      exact ⟨by rw [List.map_cons, List.map_cons, h1, h3], h4⟩

/-- `repr` and `str` of a solution tell point and objective. -/
theorem C117_solution {w : Py.Words} (hw : Legible w) (s t : PySol)
    (h : s.repr w = t.repr w ∨ s.str w = t.str w) : blurred s = blurred t := by
  rcases h with h | h
  · have h := List.append_cancel_left h
    obtain ⟨h1, h2⟩ := vec_inj hw _ _ _ _ h
    have h3 := List.append_cancel_right (List.append_cancel_left h2)
    unfold blurred
    rw [h1, hw.disp _ _ h3]
  · have h := List.append_cancel_left h
    obtain ⟨h1, h2⟩ := vec_inj hw _ _ _ _ h
    have h3 := List.append_cancel_right (List.append_cancel_left h2)
    unfold blurred
    rw [h1, hw.disp _ _ h3]

theorem debug_inj {w : Py.Words} (hw : Legible w) (s t : PySol) (r r' : List Char)
    (h : s.debug w ++ r = t.debug w ++ r') : blurred s = blurred t ∧ r = r' := by
  unfold PySol.debug at h
  simp only [List.append_assoc] at h
  have h := List.append_cancel_left h
  obtain ⟨h1, h2⟩ := vec_inj hw _ _ _ _ h
  have h3 := List.append_cancel_left h2
  obtain ⟨h4, h5⟩ := dbg_cut hw ⟨' ', _, rfl, .inr (.inr rfl)⟩ ⟨' ', _, rfl, .inr (.inr rfl)⟩ h3
  refine ⟨?_, (List.cons.inj (List.cons.inj h5).2).2⟩
  unfold blurred
  rw [h1, h4]

theorem solsTail_inj {w : Py.Words} (hw : Legible w) : ∀ (l l' : List PySol) (r r' : List Char),
    solsTail w l ++ r = solsTail w l' ++ r' → l.map blurred = l'.map blurred ∧ r = r'
  | [], [], r, r', h => ⟨rfl, (List.cons.inj h).2⟩
  | [], y :: l', r, r', h => absurd (List.cons.inj h).1 (by decide)
  | x :: l, [], r, r', h => absurd (List.cons.inj h).1 (by decide)
  | x :: l, y :: l', r, r', h => by
    have h : (x.debug w ++ solsTail w l) ++ r = (y.debug w ++ solsTail w l') ++ r' :=
      (List.cons.inj (List.cons.inj h).2).2
    rw [List.append_assoc, List.append_assoc] at h
    obtain ⟨h1, h2⟩ := debug_inj hw x y _ _ h
    obtain ⟨h3, h4⟩ := solsTail_inj hw l l' r r' h2
    exact ⟨by rw [List.map_cons, List.map_cons, h1, h3], h4⟩

theorem debug_head (w : Py.Words) (s : PySol) : ∃ t, s.debug w = 'P' :: t :=
  ⟨(s.debug w).tail, by
    have : "PyLocalSolution { point: ".toList = 'P' :: "yLocalSolution { point: ".toList := by decide +kernel
    unfold PySol.debug
    rw [this]
    rfl⟩

/-- `repr` of a solution set tells its solutions and their order. -/
theorem C117_repr {w : Py.Words} (hw : Legible w) (l l' : List PySol) (h : setRepr w l = setRepr w l') :
    l.map blurred = l'.map blurred := by
  have h := List.append_cancel_left h
  cases l with
  | nil =>
    cases l' with
    | nil => rfl
    | cons y l' =>
      have h : [']'] ++ [')'] = (y.debug w ++ solsTail w l') ++ [')'] := (List.cons.inj h).2
      obtain ⟨t, ht⟩ := debug_head w y
      rw [ht] at h
      exact absurd (List.cons.inj h).1 (by decide)
  | cons x l =>
    cases l' with
    | nil =>
      have h : (x.debug w ++ solsTail w l) ++ [')'] = [']'] ++ [')'] := (List.cons.inj h).2
      obtain ⟨t, ht⟩ := debug_head w x
      rw [ht] at h
      exact absurd (List.cons.inj h).1 (by decide)
    | cons y l' =>
      have h : (x.debug w ++ solsTail w l) ++ [')'] = (y.debug w ++ solsTail w l') ++ [')'] := (List.cons.inj h).2
      rw [List.append_assoc, List.append_assoc] at h
      obtain ⟨h1, h2⟩ := debug_inj hw x y _ _ h
      obtain ⟨h3, -⟩ := solsTail_inj hw l l' _ _ h2
      rw [List.map_cons, List.map_cons, h1, h3]

/-- Four lines for every solution but the last, three for that. -/
theorem lines_at (w : Py.Words) (k : Nat) : ∀ (l : List PySol) (j : Nat), j + l.length = k →
    ∀ i (hi : i < l.length),
      ((l.mapIdx fun a s => solLines w k (j + a) s).flatten.drop (4 * i)).take 3 =
        ["Solution #".toList ++ w.nat (j + i + 1), "  Objective: ".toList ++ w.sci8 (l[i]).objective,
          "  Parameters: ".toList ++ vec w (l[i]).point]
  | [], j, hk, i, hi => absurd hi (Nat.not_lt_zero _)
  | s :: l, j, hk, 0, hi => by
    rw [List.mapIdx_cons, List.flatten_cons]
    unfold solLines
    simp
  | s :: l, j, hk, i + 1, hi => by
    rw [List.mapIdx_cons, List.flatten_cons]
    have hl : i < l.length := by simpa using hi
    have hlen : (solLines w k (j + 0) s).length = 4 := by
      unfold solLines
      rw [if_pos (by rw [List.length_cons] at hk; omega)]
      rfl
    rw [show 4 * (i + 1) = 4 + 4 * i by omega, ← List.drop_drop, ← hlen, List.drop_left]
    have := lines_at w k l (j + 1) (by rw [List.length_cons] at hk; omega) i hl
    rw [hlen]
    simp only [List.getElem_cons_succ]
    rw [show j + (i + 1) + 1 = j + 1 + i + 1 by omega, ← this]
    have e : (fun a s => solLines w k (j + (a + 1)) s) = fun a s => solLines w k (j + 1 + a) s := by
      funext a s
      rw [show j + (a + 1) = j + 1 + a by omega]
    rw [← e]

/-- `str` of a solution set that is not empty: the number of solutions, the lowest objective, then every solution with its
number, objective and point, in the order of the set. -/
theorem C117_set (w : Py.Words) (l : List PySol) (hl : l ≠ []) :
    (∃ b ∈ l, (∀ s ∈ l, F64.tlt s.objective b.objective = false) ∧
      (setStr w l).take 5 = ["Solution Set".toList, rule, "Total solutions: ".toList ++ w.nat l.length,
        "Best objective value: ".toList ++ w.sci8 b.objective, rule]) ∧
    ∀ i (hi : i < l.length), ((setStr w l).drop (5 + 4 * i)).take 3 =
      ["Solution #".toList ++ w.nat (i + 1), "  Objective: ".toList ++ w.sci8 (l[i]).objective,
        "  Parameters: ".toList ++ vec w (l[i]).point] := by
  have hb : ∃ b, best l = some b := by
    cases h : best l with
    | none => exact absurd ((reduceSeq_none _).1 h) hl
    | some b => exact ⟨b, rfl⟩
  obtain ⟨b, hb⟩ := hb
  have he : l.isEmpty = false := by cases l with
    | nil => exact absurd rfl hl
    | cons => rfl
  have hs : setStr w l = ["Solution Set".toList, rule, "Total solutions: ".toList ++ w.nat l.length,
        "Best objective value: ".toList ++ w.sci8 b.objective, rule] ++
      (l.mapIdx fun i s => solLines w l.length i s).flatten := by
    unfold setStr
    rw [he, hb]
    rfl
  constructor
  · obtain ⟨i, h1, h2, _⟩ := reduceSeq_min PySol.objective hb
    refine ⟨b, List.mem_of_getElem? h1, fun s hm => ?_, by rw [hs]; rfl⟩
    obtain ⟨j, hj, rfl⟩ := List.getElem_of_mem hm
    have := h2 j _ (List.getElem?_eq_getElem hj)
    rw [Bool.eq_false_iff]
    intro hc
    have := F64.tlt_iff.1 hc
    omega
  · intro i hi
    have := lines_at w l.length l 0 (Nat.zero_add _) i hi
    simp only [Nat.zero_add] at this
    rw [hs, ← List.drop_drop]
    exact this

theorem lines_length (w : Py.Words) (k : Nat) : ∀ (l : List PySol) (j : Nat), j + l.length = k → l ≠ [] →
    (l.mapIdx fun a s => solLines w k (j + a) s).flatten.length = 4 * l.length - 1
  | [], _, _, h => absurd rfl h
  | [s], j, hk, _ => by
    simp only [List.mapIdx_cons, List.mapIdx_nil, List.flatten_cons, List.flatten_nil, List.append_nil]
    unfold solLines
    rw [if_neg (by simp only [List.length_cons, List.length_nil] at hk; omega)]
    rfl
  | s :: t :: l, j, hk, _ => by
    rw [List.mapIdx_cons, List.flatten_cons, List.length_append]
    have hlen : (solLines w k (j + 0) s).length = 4 := by
      unfold solLines
      rw [if_pos (by simp only [List.length_cons] at hk; omega)]
      rfl
    have := lines_length w k (t :: l) (j + 1) (by simp only [List.length_cons] at hk ⊢; omega) (by simp)
    have e : (fun a s => solLines w k (j + (a + 1)) s) = fun a s => solLines w k (j + 1 + a) s := by
      funext a s
      rw [show j + (a + 1) = j + 1 + a by omega]
    rw [hlen, e, this]
    simp only [List.length_cons]
    omega

/-- There are no further lines, and the text of the empty set says that there are 0 solutions. -/
theorem C117_length (w : Py.Words) (l : List PySol) :
    (l ≠ [] → (setStr w l).length = 4 + 4 * l.length) ∧
    (l = [] → setStr w l = ["Solution Set".toList, rule, "Total solutions: ".toList ++ w.nat 0, rule]) := by
  constructor
  · intro hl
    have he : l.isEmpty = false := by cases l with
      | nil => exact absurd rfl hl
      | cons => rfl
    have hp : 0 < l.length := List.length_pos_iff.2 hl
    have hb : ∃ b, best l = some b := by
      cases h : best l with
      | none => exact absurd ((reduceSeq_none _).1 h) hl
      | some b => exact ⟨b, rfl⟩
    obtain ⟨b, hb⟩ := hb
    have := lines_length w l.length l 0 (Nat.zero_add _) hl
    simp only [Nat.zero_add] at this
    unfold setStr
    rw [he, hb]
    simp only [List.length_append, this, List.length_cons, List.length_nil, Bool.false_eq_true, if_false]
    omega
  · rintro rfl
    rfl

/-- `str` of an observer begins with what it tracks, and has a section for a stage exactly if the getter of that stage
returns a state; the section has the values of the state, and there is nothing else. -/
theorem C117_getters {n : Nat} (o : PyObs n) :
    (∃ l, o.str = [.tracking1 o.inner.should1, .tracking2 o.inner.should2, .timing o.inner.trackTiming] ++ l ∧
      l.length = o.inner.getStage1.toList.length + o.inner.getStage2.toList.length) ∧
    (∀ size best substage evals trials, ObsPart.stage1 size best substage evals trials ∈ o.str ↔
      ∃ s, o.inner.getStage1 = some s ∧ s.refSetSize = size ∧ s.bestObjective = best ∧ s.substage = substage ∧
        s.functionEvaluations = evals ∧ s.trialPoints = trials) ∧
    ∀ it best size thr calls improved evals unch,
      ObsPart.stage2 it best size thr calls improved evals unch ∈ o.str ↔
      ∃ s, o.inner.getStage2 = some s ∧ s.iteration = it ∧ s.bestObjective = best ∧ s.solutionSetSize = size ∧
        s.threshold = thr ∧ s.localCalls = calls ∧ s.improvedCalls = improved ∧ s.functionEvaluations = evals ∧
        s.unchangedCycles = unch := by
  unfold PyObs.str
  refine ⟨⟨_, List.append_assoc _ _ _, ?_⟩, ?_, ?_⟩
  · cases o.inner.getStage1 <;> cases o.inner.getStage2 <;> rfl
  · intro size best substage evals trials
    cases o.inner.getStage1 <;> cases o.inner.getStage2 <;> simp [eq_comm]
  · intro it best size thr calls improved evals unch
    cases o.inner.getStage1 <;> cases o.inner.getStage2 <;> simp [eq_comm]

/-- After a successful `optimize` with an observer for stage 2 that was not used before, `str` of the observer shows this
optimization: its settings, the number of solutions, and, if the target was not reached, the number of local searches.
Missing: stage 1, see `C117_stage1_violated`. -/
theorem C117_observer_partial {n : Nat} (lower : Char → List Char) (env : Env n) (a : Args n) (b : PyObs n)
    (l : List PySol) (ht : Tame env) (hb : a.observer = some b) (hm : b.inner.mode ≠ .stage1Only)
    (h2 : b.inner.stage2 = some Stage2.new) (hn : b.inner.stage2Started = false)
    (h : (optimize lower env a).value = .ok l) :
    ∃ o b', setup lower a = .ok o ∧ (optimize lower env a).observer = some b' ∧
      ObsPart.tracking2 b'.inner.should2 ∈ b'.str ∧
      ∀ it best size thr calls improved evals unch,
        ObsPart.stage2 it best size thr calls improved evals unch ∈ b'.str →
          size = l.length ∧ calls ≤ nSearch (run env o none).final.trace ∧
          (¬ TargetMet o (run env o none).final.trace → calls = nSearch (run env o none).final.trace) := by
  obtain ⟨o, b', s, ho, hb', -, hs, hc, -, hx, hz⟩ := C79_fresh_partial lower env a b l ht hb hm h2 hn h
  refine ⟨o, b', ho, hb', ?_, ?_⟩
  · unfold PyObs.str
    simp
  · intro it bst size thr calls improved evals unch hmem
    have hg : b'.inner.getStage2 = some s := by
      unfold PyObs.str at hmem
      cases hg : b'.inner.getStage2 with
      | none =>
        rw [hg] at hmem
        cases hg1 : b'.inner.getStage1 with
        | none => rw [hg1] at hmem; simp at hmem
        | some s1 => rw [hg1] at hmem; simp at hmem
      | some s' =>
        unfold Obs.getStage2 at hg
        split at hg
        · rw [hs] at hg; exact hg.symm
        · cases hg
    have he : size = s.solutionSetSize ∧ calls = s.localCalls := by
      unfold PyObs.str at hmem
      rw [hg] at hmem
      cases hg1 : b'.inner.getStage1 with
      | none => rw [hg1] at hmem; simp at hmem; exact ⟨hmem.2.2.1, hmem.2.2.2.2.1⟩
      | some s1 => rw [hg1] at hmem; simp at hmem; exact ⟨hmem.2.2.1, hmem.2.2.2.2.1⟩
    rw [he.1, he.2]
    exact ⟨hz hg, hc, fun ht => (hx (.inr ht)).1⟩

/-- Is there a section on stage 1? -/
def tellsStage1 (l : List ObsPart) : Bool := l.any fun p => match p with
  | .stage1 .. => true
  | _ => false

/-- An observer that tracks both stages. -/
def bothTracker : PyObs 1 := observerAfter [.stage1Tracking, .stage2Tracking]

/-- After an optimization `str` of the observer says nothing about stage 1 although it was tracked. -/
theorem C117_stage1_violated : ∃ (lower : Char → List Char) (e : Env 1) (a : Args 1) (b' : PyObs 1),
    a.observer = some bothTracker ∧ (optimize lower e a).value.toOption.isSome = true ∧
    (optimize lower e a).observer = some b' ∧ b'.inner.getStage1Final.isSome = true ∧
    b'.inner.should1 = true ∧ tellsStage1 b'.str = false ∧ tellsStage1 bothTracker.str = true := by
  have h : ((optimize demoLower (env tilted) (observedArgs (some bothTracker))).observer.map fun b' =>
      b'.inner.getStage1Final.isSome && b'.inner.should1 && !tellsStage1 b'.str) = some true := by decide +kernel
  cases hb : (optimize demoLower (env tilted) (observedArgs (some bothTracker))).observer with
  | none => rw [hb] at h; cases h
  | some b' =>
    rw [hb] at h
    injection h with h
    simp only [Bool.and_eq_true, Bool.not_eq_true'] at h
    exact ⟨demoLower, env tilted, observedArgs (some bothTracker), b', rfl, by decide +kernel, hb, h.1.1, h.1.2, h.2,
      by decide +kernel⟩

/-- A way of writing numbers that can be read. -/
def plainly : Py.Words := ⟨Name.decimal, plain.float, plain.float, plain.float⟩

theorem plainly_legible : Legible plainly where
  nat _ := rfl
  disp := plain_readable.float
  dbg := plain_readable.float
  chars x c hc := by
    cases hx : x.isNaN with
    | true =>
      have hN : plain.float x = ['N', 'a', 'N'] := by
        show (if x.isNaN = true then _ else _) = _
        rw [hx, if_pos rfl]; decide +kernel
      have hc : c ∈ plain.float x := hc
      rw [hN] at hc
      simp only [List.mem_cons, List.not_mem_nil, or_false] at hc
      rcases hc with rfl | rfl | rfl <;> decide
    | false =>
      rcases plain_chars hx c hc with rfl | hd
      · decide
      · refine ⟨?_, ?_, ?_⟩ <;> (rintro rfl; revert hd; unfold Name.IsDigit; decide)
  some x h := by
    have h : plain.float x = [] := h
    cases hx : x.isNaN with
    | true =>
      have hN : plain.float x = ['N', 'a', 'N'] := by
        show (if x.isNaN = true then _ else _) = _
        rw [hx, if_pos rfl]; decide +kernel
      rw [hN] at h
      cases h
    | false =>
      have hd : plain.float x = (if x.neg then ['-'] else []) ++ Name.decimal x.mag := by
        show (if x.isNaN = true then _ else _) = _
        rw [hx]; rfl
      rw [hd] at h
      have h := (List.append_eq_nil_iff.1 h).2
      unfold Name.decimal Name.decAux at h
      split at h
      · cases h
      · exact absurd (List.append_eq_nil_iff.1 h).2 (by simp)

example : Legible plainly := plainly_legible

/-- Two solutions. -/
def twoPrinted : List PySol := [⟨[F64.one], F64.one⟩, ⟨[F64.zero, F64.one], F64.zero⟩]

example : (twoPrinted[1]).repr ⟨Name.decimal, fun _ => ['7'], fun _ => ['8'], fun _ => ['9']⟩ =
    "PyLocalSolution(point=[8, 8], objective=7)".toList := by decide +kernel

example : setRepr plainly twoPrinted ≠ setRepr plainly twoPrinted.reverse := by decide +kernel

example : twoPrinted ≠ [] ∧ (setStr plainly twoPrinted).length = 12 ∧
    (setStr plainly twoPrinted)[3]? = some "Best objective value: 0".toList ∧
    (setStr plainly twoPrinted)[9]? = some "Solution #2".toList :=
  ⟨by decide, by decide +kernel, by decide +kernel, by decide +kernel⟩

/-- Sizes and numbers of local searches printed. -/
def printedStage2 (r : Py.Result 1) : Option (List (Nat × Nat)) := r.observer.map fun b => b.str.filterMap fun p =>
  match p with
  | .stage2 _ _ size _ calls _ _ _ => some (size, calls)
  | _ => none

example : stage2Tracker.inner.mode ≠ .stage1Only ∧ stage2Tracker.inner.stage2 = some Stage2.new ∧
    stage2Tracker.inner.stage2Started = false ∧ Tame (env tilted) ∧ (returned firstUse).length = 3 ∧
    printedStage2 firstUse = some [(3, 2)] :=
  ⟨by decide, rfl, rfl, env_tame _, by decide +kernel, by decide +kernel⟩

end GS.Props
