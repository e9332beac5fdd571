/- C119: the text of a checkpoint. -/
import Verif.Model.CkptText
import Verif.Props.Messages
import Verif.Props.Codec
import Verif.Props.Manager
import Verif.Props.Outcome
import Verif.Props.SavesPar

namespace GS.Props
open GS GS.Witness Manager Dir

/-- Numbers are written as Rust writes them: `usize` in decimal, `f64` so that it can be read back (but for the bits of a
NaN); with a fixed number of digits it is arbitrary, but never the text "None". A hypothesis of theorems. -/
structure CkptLegible (w : CkptWords) : Prop where
  nat : ∀ k, w.nat k = Name.decimal k
  disp : ∀ x y, w.disp x = w.disp y → x.blur = y.blur
  sci8 : ∀ x, w.sci8 x ≠ "None".toList

theorem setLines_read {w : CkptWords} (hw : CkptLegible w) (c d : WCkpt) {r s : List (List Char)}
    (h : c.setLines w ++ r = d.setLines w ++ s) :
    c.solutionSet.map List.length = d.solutionSet.map List.length ∧ r = s ∧
      (∀ x y, c.solutionSet.bind (reduceSeq (minOp WSol.objective)) = some x →
        d.solutionSet.bind (reduceSeq (minOp WSol.objective)) = some y → w.sci8 x.objective = w.sci8 y.objective) := by
  have hsp : ¬ Name.IsDigit ' ' := by unfold Name.IsDigit; decide
  have hN : ¬ Name.IsDigit 'N' := by unfold Name.IsDigit; decide
  have none_ne : ∀ k : Nat, "Solution set: None".toList ≠ "Solution set: ".toList ++ (w.nat k ++ " solutions".toList) := by
    intro k hk
    have hk : "Solution set: ".toList ++ "None".toList = "Solution set: ".toList ++ (w.nat k ++ " solutions".toList) := by
      rw [← hk]; decide +kernel
    have hk := List.append_cancel_left hk
    rw [hw.nat] at hk
    have hk : [] ++ 'N' :: "one".toList = Name.decimal k ++ ' ' :: "solutions".toList := hk
    obtain ⟨-, h2⟩ := cut (p := Name.IsDigit) (by simp) (decimal_digits k) hN hsp hk
    injection h2 with h2
    revert h2; decide
  unfold WCkpt.setLines at h
  cases hc : c.solutionSet with
  | none =>
    cases hd : d.solutionSet with
    | none =>
      rw [hc, hd] at h
      exact ⟨rfl, (List.cons.inj h).2, fun x y hx => by cases hx⟩
    | some m =>
      rw [hc, hd] at h
      exact absurd (List.cons.inj h).1 (none_ne _)
  | some l =>
    cases hd : d.solutionSet with
    | none =>
      rw [hc, hd] at h
      exact absurd (List.cons.inj h).1.symm (none_ne _)
    | some m =>
      rw [hc, hd] at h
      obtain ⟨h1, h2⟩ := List.cons.inj h
      have h1 := List.append_cancel_right (List.append_cancel_left h1)
      rw [hw.nat, hw.nat] at h1
      have hlen := decimal_inj h1
      refine ⟨by simp [hlen], ?_⟩
      simp only [Option.bind_some]
      cases hl : reduceSeq (minOp WSol.objective) l with
      | none =>
        have hl := (reduceSeq_none _).1 hl
        have hm : m = [] := List.length_eq_zero_iff.1 (by rw [← hlen, hl]; rfl)
        rw [hl, hm] at h2
        exact ⟨h2, fun x y hx => (by cases hx)⟩
      | some x =>
        cases hm : reduceSeq (minOp WSol.objective) m with
        | none =>
          have hm := (reduceSeq_none _).1 hm
          rw [hm] at hlen
          rw [List.length_eq_zero_iff.1 hlen] at hl
          cases hl
        | some y =>
          rw [hl, hm] at h2
          obtain ⟨h3, h4⟩ := List.cons.inj h2
          refine ⟨h4, fun x' y' hx hy => ?_⟩
          cases hx; cases hy
          exact List.append_cancel_left h3

theorem SolverType.debug_inj {s t : SolverType} (h : s.debug = t.debug) : s = t := by
  revert h; cases s <;> cases t <;> decide +kernel

theorem boolText_inj {a b : Bool} (h : boolText a = boolText b) : a = b := by
  revert h; cases a <;> cases b <;> decide +kernel

/-- What can be read from the text of a checkpoint: all counters and sizes, the seeds, the factors, the solver, whether
there is a solution set and a target, and the remaining numbers as far as their digits go. -/
theorem C119_read {w : CkptWords} (hw : CkptLegible w) (c d : WCkpt) (h : c.text w = d.text w) :
    (c.timestamp = d.timestamp ∧ c.currentIteration = d.currentIteration ∧ c.unchangedCycles = d.unchangedCycles ∧
      c.referenceSet.length = d.referenceSet.length ∧
      c.distanceFilterSolutions.length = d.distanceFilterSolutions.length ∧ c.currentSeed = d.currentSeed ∧
      c.solutionSet.map List.length = d.solutionSet.map List.length) ∧
    (c.params.populationSize = d.params.populationSize ∧ c.params.iterations = d.params.iterations ∧
      c.params.waitCycle = d.params.waitCycle ∧ c.params.thresholdFactor.blur = d.params.thresholdFactor.blur ∧
      c.params.distanceFactor.blur = d.params.distanceFactor.blur ∧ c.params.solverType = d.params.solverType ∧
      c.params.seed = d.params.seed ∧ c.excludeOutOfBounds = d.excludeOutOfBounds) ∧
    w.sci8 c.meritThreshold = w.sci8 d.meritThreshold ∧ w.fix2 c.elapsedTime = w.fix2 d.elapsedTime ∧
    w.sci2 c.absTol = w.sci2 d.absTol ∧ w.sci2 c.relTol = w.sci2 d.relTol ∧
    c.targetObjective.map w.sci8 = d.targetObjective.map w.sci8 := by
  have e : ∀ {p x y : List Char}, p ++ x = p ++ y → x = y := fun h => List.append_cancel_left h
  have en : ∀ {p : List Char} {x y : Nat}, p ++ w.nat x = p ++ w.nat y → x = y := fun h => by
    have h := List.append_cancel_left h
    rw [hw.nat, hw.nat] at h
    exact decimal_inj h
  unfold WCkpt.text at h
  simp only [List.cons_append, List.nil_append, List.cons.injEq, true_and] at h
  obtain ⟨h1, h2, h3, h4, h5, h6, h7, h8, h⟩ := h
  obtain ⟨hset, h, -⟩ := setLines_read hw c d h
  simp only [List.cons.injEq, true_and, and_true] at h
  obtain ⟨p1, p2, p3, p4, p5, p6, p7, p8, p9, p10, p11⟩ := h
  refine ⟨⟨String.toList_inj.1 (e h1), en h2, en h4, en h6, en h7, en h8, hset⟩,
    ⟨en p1, en p2, en p3, hw.disp _ _ (e p4), hw.disp _ _ (e p5), SolverType.debug_inj (e p6), en p7,
      boolText_inj (e p9)⟩,
    e h5, List.append_cancel_right (e h3), e p10, e p11, ?_⟩
  unfold WCkpt.targetLine at p8
  have key : ∀ t, "  Target objective: ".toList ++ w.sci8 t ≠ "  Target objective: None".toList := fun t ht => by
    have : "  Target objective: None".toList = "  Target objective: ".toList ++ "None".toList := by decide +kernel
    rw [this] at ht
    exact hw.sci8 t (e ht)
  cases hc : c.targetObjective <;> cases hd : d.targetObjective <;> rw [hc, hd] at p8
  · exact absurd p8.symm (key _)
  · exact absurd p8 (key _)
  · exact congrArg some (e p8)

/-- The text says "Best objective" exactly if there is a solution, and then it is the lowest objective of the set. -/
theorem C119_best (w : CkptWords) (c : WCkpt) :
    (∀ l, c.solutionSet = some l → l ≠ [] → ∃ b ∈ l, (∀ s ∈ l, F64.tlt s.objective b.objective = false) ∧
      (c.text w)[10]? = some ("Best objective: ".toList ++ w.sci8 b.objective) ∧ (c.text w).length = 24) ∧
    ((c.solutionSet = none ∨ c.solutionSet = some []) → (c.text w)[10]? = some "Parameters:".toList ∧
      (c.text w).length = 23) := by
  constructor
  · intro l hl hne
    have hb : ∃ b, reduceSeq (minOp WSol.objective) l = some b := by
      cases h : reduceSeq (minOp WSol.objective) l with
      | none => exact absurd ((reduceSeq_none _).1 h) hne
      | some b => exact ⟨b, rfl⟩
    obtain ⟨b, hb⟩ := hb
    obtain ⟨i, h1, h2, _⟩ := reduceSeq_min WSol.objective hb
    have hs : c.setLines w = ["Solution set: ".toList ++ (w.nat l.length ++ " solutions".toList),
        "Best objective: ".toList ++ w.sci8 b.objective] := by
      unfold WCkpt.setLines
      rw [hl]
      dsimp only
      rw [hb]
    refine ⟨b, List.mem_of_getElem? h1, fun s hm => ?_, ?_, ?_⟩
    · obtain ⟨j, hj, rfl⟩ := List.getElem_of_mem hm
      have := h2 j _ (List.getElem?_eq_getElem hj)
      rw [Bool.eq_false_iff]
      intro hc
      have := F64.tlt_iff.1 hc
      omega
    · unfold WCkpt.text; rw [hs]; rfl
    · unfold WCkpt.text; rw [hs]; rfl
  · intro h
    have hs : ∃ x, c.setLines w = [x] := by
      unfold WCkpt.setLines
      rcases h with h | h <;> rw [h]
      · exact ⟨_, rfl⟩
      · exact ⟨_, rfl⟩
    obtain ⟨x, hs⟩ := hs
    constructor <;> (unfold WCkpt.text; rw [hs]; rfl)

/-- Each number is printed under its label. -/
theorem C119_labels (w : CkptWords) (c : WCkpt) :
    ("Timestamp: ".toList ++ c.timestamp.toList ∈ c.text w ∧
      "Current iteration: ".toList ++ w.nat c.currentIteration ∈ c.text w ∧
      "Elapsed time: ".toList ++ (w.fix2 c.elapsedTime ++ "s".toList) ∈ c.text w ∧
      "Unchanged cycles: ".toList ++ w.nat c.unchangedCycles ∈ c.text w ∧
      "Merit threshold: ".toList ++ w.sci8 c.meritThreshold ∈ c.text w ∧
      "Reference set size: ".toList ++ w.nat c.referenceSet.length ∈ c.text w ∧
      "Distance filter solutions: ".toList ++ w.nat c.distanceFilterSolutions.length ∈ c.text w ∧
      "Current seed: ".toList ++ w.nat c.currentSeed ∈ c.text w) ∧
    (∀ l, c.solutionSet = some l →
      "Solution set: ".toList ++ (w.nat l.length ++ " solutions".toList) ∈ c.text w) ∧
    (c.solutionSet = none → "Solution set: None".toList ∈ c.text w) ∧
    ("  Population size: ".toList ++ w.nat c.params.populationSize ∈ c.text w ∧
      "  Iterations: ".toList ++ w.nat c.params.iterations ∈ c.text w ∧
      "  Wait cycle: ".toList ++ w.nat c.params.waitCycle ∈ c.text w ∧
      "  Threshold factor: ".toList ++ w.disp c.params.thresholdFactor ∈ c.text w ∧
      "  Distance factor: ".toList ++ w.disp c.params.distanceFactor ∈ c.text w ∧
      "  Seed: ".toList ++ w.nat c.params.seed ∈ c.text w ∧
      (∀ t, c.targetObjective = some t → "  Target objective: ".toList ++ w.sci8 t ∈ c.text w) ∧
      (c.targetObjective = none → "  Target objective: None".toList ∈ c.text w) ∧
      "  Exclude out of bounds: ".toList ++ (if c.excludeOutOfBounds then "true".toList else "false".toList) ∈
        c.text w ∧
      "  Absolute tolerance: ".toList ++ w.sci2 c.absTol ∈ c.text w ∧
      "  Relative tolerance: ".toList ++ w.sci2 c.relTol ∈ c.text w) := by
  have m : ∀ {l : List (List Char)} (i : Nat) {x : List Char}, l[i]? = some x → x ∈ l :=
    fun _ _ h => List.mem_of_getElem? h
  have a : ∀ {l r : List (List Char)} (i : Nat) {x : List Char}, r[i]? = some x → x ∈ l ++ (c.setLines w ++ r) :=
    fun i _ h => List.mem_append_right _ (List.mem_append_right _ (List.mem_of_getElem? h))
  refine ⟨⟨m 1 rfl, m 2 rfl, m 3 rfl, m 4 rfl, m 5 rfl, m 6 rfl, m 7 rfl, m 8 rfl⟩, fun l hl => ?_, fun hn => ?_,
    a 1 rfl, a 2 rfl, a 3 rfl, a 4 rfl, a 5 rfl, a 7 rfl, fun t ht => a 8 ?_, fun hn => a 8 ?_, a 9 rfl, a 10 rfl,
    a 11 rfl⟩
  · refine List.mem_append_right _ (List.mem_append_left _ ?_)
    unfold WCkpt.setLines
    rw [hl]
    exact List.mem_cons_self
  · refine List.mem_append_right _ (List.mem_append_left _ ?_)
    unfold WCkpt.setLines
    rw [hn]
    exact List.mem_cons_self
  · show some (c.targetLine w) = _
    unfold WCkpt.targetLine
    rw [ht]
  · show some (c.targetLine w) = _
    unfold WCkpt.targetLine
    rw [hn]

/-- A checkpoint loaded from the single file has the text of the one saved last. -/
theorem C119_loaded (w : CkptWords) (m : Manager) (hk : m.keepAll = false) (d0 d : Dir) (hn : (names d0).Nodup)
    (pre : List (Nat × WCkpt)) (i : Nat) (c : WCkpt) (hc : CkptOk m.feat c)
    (hd : d.Perm (m.saveAll d0 (pre ++ [(i, c)]))) : ∃ c', m.loadLatest d = .ok c' ∧ c'.text w = c.text w :=
  ⟨c, (C42_single m hk d0 d hn pre i c hc hd).1, rfl⟩

variable {n : Nat}

/-- The text of the last checkpoint of a successful run gives the number of solutions returned and their lowest
objective. There is no checkpoint if the target was reached in stage 1. -/
theorem C119_final (w : CkptWords) {env : Env n} {o : Opt n} {loaded : Option (Except CkErr (Ckpt n))}
    {st eff : Nat} {cfg : CkptConfig} {set : List (Sol n)} (hb : Built o) (h : StartsAt env o loaded st eff)
    (hl : ∀ c, loaded = some (.ok c) → c.solutionSet ≠ some []) (hp : Polite env) (hc : o.ckpt = some cfg)
    (hok : (run env o loaded).result = .ok set) :
    (marks (run env o loaded).final.trace = [] ∧ (run env o loaded).final.opt.targetReached = true) ∨
    ∃ pre it c, (run env o loaded).final.trace = pre ++ [.saved it c] ∧
      (c.toWire.text w)[9]? = some ("Solution set: ".toList ++ (w.nat set.length ++ " solutions".toList)) ∧
      ∃ b ∈ set, (∀ s ∈ set, F64.tlt s.objective b.objective = false) ∧
        (c.toWire.text w)[10]? = some ("Best objective: ".toList ++ w.sci8 b.objective) := by
  rcases C49_final_every_mode h (fun c hr => hl c hr.1) hp hc hok with h1 | ⟨pre, it, c, ht, hset⟩
  · exact .inl h1
  refine .inr ⟨pre, it, c, ht, ?_⟩
  have hne : set ≠ [] := fun h0 => C31_saved_nonempty hb hl it c (by rw [ht]; simp) (by rw [hset, h0])
  have hw : c.toWire.solutionSet = some (set.map fun s => ⟨List.ofFn s.point, s.objective⟩) := by
    unfold Ckpt.toWire
    rw [hset]
    rfl
  constructor
  · have : ∃ r, c.toWire.setLines w = ("Solution set: ".toList ++ (w.nat set.length ++ " solutions".toList)) :: r := by
      unfold WCkpt.setLines
      rw [hw]
      dsimp only
      rw [List.length_map]
      exact ⟨_, rfl⟩
    obtain ⟨r, hr⟩ := this
    unfold WCkpt.text
    rw [hr]
    rfl
  · obtain ⟨b, hbm, hmin, hbt, -⟩ := (C119_best w c.toWire).1 _ hw (by simpa using hne)
    obtain ⟨s, hs, rfl⟩ := List.mem_map.1 hbm
    exact ⟨s, hs, fun t htm => hmin _ (List.mem_map.2 ⟨t, htm, rfl⟩), hbt⟩

/-- A way of writing numbers that can be read. -/
def plainCkpt : CkptWords := ⟨Name.decimal, plain.float, plain.float, plain.float, plain.float⟩

theorem plainCkpt_legible : CkptLegible plainCkpt where
  nat _ := rfl
  disp := plain_readable.float
  sci8 x h := by
    have h : plain.float x = ['N', 'o', 'n', 'e'] := by rw [show plain.float x = plainCkpt.sci8 x from rfl, h]; rfl
    cases hx : x.isNaN with
    | true =>
      have hN : plain.float x = ['N', 'a', 'N'] := by
        show (if x.isNaN = true then _ else _) = _
        rw [hx, if_pos rfl]; decide +kernel
      rw [hN] at h
      revert h; decide
    | false =>
      have := plain_chars hx 'N' (by rw [h]; simp)
      revert this; unfold Name.IsDigit; decide

example : CkptLegible plainCkpt := plainCkpt_legible

example : (sampleCkpt.text plainCkpt)[2]? = some "Current iteration: 3".toList ∧
    (sampleCkpt.text plainCkpt)[9]? = some "Solution set: 1 solutions".toList ∧
    (sampleCkpt.text plainCkpt).length = 24 ∧
    ({ sampleCkpt with solutionSet := none }.text plainCkpt)[9]? = some "Solution set: None".toList :=
  ⟨by decide +kernel, by decide +kernel, by decide +kernel, by decide +kernel⟩

example : sampleCkpt.text plainCkpt ≠ { sampleCkpt with currentSeed := 11 }.text plainCkpt := by decide +kernel

/-- The last checkpoint of a parallel run. -/
example : Built parCalling ∧ StartsAt inOrder parCalling none 0 (parCalling.effBatch inOrder.threads 0) ∧
    Polite inOrder ∧ parCalling.ckpt.isSome = true ∧ succeeds (run inOrder parCalling none) = true ∧
    marks (run inOrder parCalling none).final.trace ≠ [] :=
  ⟨parCalling_built, .fresh parCalling_built (Or.inl rfl), fun _ _ _ => ⟨rfl, rfl⟩, rfl, by decide +kernel,
    by decide +kernel⟩

end GS.Props
