/- C07, C08: what the solution set keeps. -/
import Verif.Props.SolutionSet
import Verif.Lemmas.Tolerance

namespace GS.Props
open GS F64
variable {n : Nat}

/-- The local solution may enter the set: exclusion is off or it passes the bounds check. -/
def admissible (o : Opt n) (s : Sol n) : Prop :=
  o.exclude = true → withinBounds o.problem s.point = true

/-- `s` is significantly better than `h`: `s < h - max(abs_tol, rel_tol * max(|s|, |h|))`. -/
def significantlyBetter (absTol relTol s h : F64) : Bool :=
  F64.lt s (h.sub (absTol.max (relTol.mul (s.abs.max h.abs))))

/-! ### C08 -/

theorem not_sigBetter_self {a r s : F64} (ha : F64.le F64.zero a = true) :
    significantlyBetter a r s s = false := by
  rw [Bool.eq_false_iff]
  intro hc
  obtain ⟨h1, h2, h3⟩ := lt_iff.1 hc
  obtain ⟨_, a2, a3⟩ := le_iff.1 ha
  have hm := max_key_left (y := r.mul (s.abs.max s.abs)) a2
  have hz : F64.zero.key = 0 := by decide
  have := (sub_le_self (x := s) hm.2 (by omega) h2).1
  omega

/-- Replacing the head by a significantly better one keeps older solutions not significantly better. -/
theorem sigBetter_trans {a r s x h : F64} (ha : F64.le F64.zero a = true)
    (hr : F64.le F64.zero r = true) (hrf : r.isFinite = true)
    (hs : s.isFinite = true) (hx : x.isFinite = true) (hh : h.isFinite = true)
    (hnew : significantlyBetter a r x h = true) (hold : significantlyBetter a r s h = false) :
    significantlyBetter a r s x = false := by
  have hz : F64.zero.key = 0 := by decide
  obtain ⟨_, a2, a3⟩ := le_iff.1 ha
  obtain ⟨_, _, r3⟩ := le_iff.1 hr
  have hT0 : ∀ y z : F64, 0 ≤ (tolerance a r y z).key := fun y z => by
    have := (max_key_left (y := r.mul (y.abs.max z.abs)) a2).1
    unfold tolerance; omega
  have hTn : ∀ y z : F64, (tolerance a r y z).isNaN = false := fun y z =>
    (max_key_left (y := r.mul (y.abs.max z.abs)) a2).2
  have hnew' : x.key < (h.sub (tolerance a r x h)).key := (lt_iff.1 hnew).2.2
  rw [Bool.eq_false_iff]
  intro hc
  have hc' : s.key < (x.sub (tolerance a r s x)).key := (lt_iff.1 hc).2.2
  have hsx : s.key < x.key := by
    have := (sub_le_self (x := x) (hTn s x) (hT0 s x) (lt_iff.1 hc).2.1).1
    omega
  have hxh : x.key ≤ h.key := by
    have := (sub_le_self (x := h) (hTn x h) (hT0 x h) (lt_iff.1 hnew).2.1).1
    omega
  have hnb : (h.sub (tolerance a r s h)).isNaN = false →
      (h.sub (tolerance a r s h)).key ≤ s.key := by
    intro hn
    by_contra hcon
    have : significantlyBetter a r s h = true := lt_iff.2 ⟨fin_not_nan hs, hn, by
      unfold tolerance at hcon; omega⟩
    rw [this] at hold; cases hold
  rcases Nat.le_total (Nat.max s.mag h.mag) (Nat.max x.mag h.mag) with c | c
  · have hm := (tolerance_mono a2 (by omega) hrf hs hh hx hh c).2
    obtain ⟨k1, k2, _⟩ := sub_mono hh hh (hTn s h) (hTn x h) (hT0 s h) (Int.le_refl _) hm
    have := hnb k2
    omega
  · by_cases c2 : Nat.max s.mag h.mag ≤ Nat.max x.mag h.mag
    · have hm := (tolerance_mono a2 (by omega) hrf hs hh hx hh c2).2
      obtain ⟨k1, k2, _⟩ := sub_mono hh hh (hTn s h) (hTn x h) (hT0 s h) (Int.le_refl _) hm
      have := hnb k2
      omega
    · have c3 : Nat.max s.mag h.mag ≤ Nat.max s.mag x.mag := by
        have e1 : h.mag ≤ Nat.max x.mag h.mag := Nat.le_max_right _ _
        have e3 : s.mag ≤ Nat.max s.mag x.mag := Nat.le_max_left _ _
        have e4 : Nat.max s.mag h.mag = s.mag := by
          rcases Nat.le_total s.mag h.mag with d | d
          · have : Nat.max s.mag h.mag = h.mag := Nat.max_eq_right d
            omega
          · exact Nat.max_eq_left d
        omega
      have hm := (tolerance_mono a2 (by omega) hrf hs hh hs hx c3).2
      obtain ⟨k1, k2, _⟩ := sub_mono hh hx (hTn s h) (hTn s x) (hT0 s h) hxh hm
      have := hnb k2
      omega

/-- State invariant behind C08: the head and what was seen so far. -/
structure C08Inv (c : SetCfg n) (st : Option (List (Sol n))) (hist : List (Sol n)) : Prop where
  none_seen : st = none → ∀ s ∈ hist, c.exclude = true ∧ withinBounds c.problem s.point = false
  head_ok : ∀ set, st = some set → ∃ hd tl, set = hd :: tl ∧ hd.objective.isFinite = true ∧
    ∀ s ∈ hist, (c.exclude = true → withinBounds c.problem s.point = true) →
      significantlyBetter c.absTol c.relTol s.objective hd.objective = false

theorem c08_fold {c : SetCfg n} {st : Option (List (Sol n))} (hist : List (Sol n))
    (ha : F64.le F64.zero c.absTol = true) (hr : F64.le F64.zero c.relTol = true)
    (hrf : c.relTol.isFinite = true) (hfin : ∀ s ∈ hist, s.objective.isFinite = true)
    (h0 : C08Inv c st []) : C08Inv c (setFold c st hist) hist := by
  induction hist using List.reverseRecOn with
  | nil => exact h0
  | append_singleton l x ih =>
    have hf' : ∀ s ∈ l, s.objective.isFinite = true := fun s hs => hfin s (by simp [hs])
    have hx := hfin x (by simp)
    obtain ⟨i1, i2⟩ := ih hf'
    rw [setFold_snoc]
    by_cases hex : c.exclude = true ∧ withinBounds c.problem x.point = false
    · have hv : classify c (setFold c st l) x = .outOfBounds := by
        unfold classify; rw [if_pos (by simp [hex.1, hex.2])]
      rw [hv]
      simp only [newSet]
      refine ⟨fun hn s hs => ?_, fun set hs => ?_⟩
      · rw [List.mem_append] at hs
        rcases hs with hs | hs
        · exact i1 hn s hs
        · simp at hs; subst hs; exact hex
      · obtain ⟨hd, tl, e1, e2, e3⟩ := i2 set hs
        refine ⟨hd, tl, e1, e2, fun s hs had => ?_⟩
        rw [List.mem_append] at hs
        rcases hs with hs | hs
        · exact e3 s hs had
        · simp at hs; subst hs
          rw [had hex.1] at hex; cases hex.2
    · have hnot : (c.exclude && !withinBounds c.problem x.point) = false := by
        rw [Bool.eq_false_iff]; intro hc
        simp at hc
        exact hex ⟨hc.1, hc.2⟩
      cases hset : setFold c st l with
      | none =>
        have hv : classify c none x = .first := by
          unfold classify; rw [hnot]; rfl
        rw [hv]
        simp only [newSet]
        refine ⟨by simp, fun set hs => ?_⟩
        injection hs with hs; subst hs
        refine ⟨x, [], rfl, hx, fun s hs had => ?_⟩
        rw [List.mem_append] at hs
        rcases hs with hs | hs
        · obtain ⟨k1, k2⟩ := i1 hset s hs
          rw [had k1] at k2; cases k2
        · simp at hs; subst hs; exact not_sigBetter_self ha
      | some set =>
        obtain ⟨hd, tl, rfl, e2, e3⟩ := i2 set hset
        have keep : significantlyBetter c.absTol c.relTol x.objective hd.objective = false →
            ∀ s ∈ l ++ [x], (c.exclude = true → withinBounds c.problem s.point = true) →
            significantlyBetter c.absTol c.relTol s.objective hd.objective = false := by
          intro hnb s hs had
          rw [List.mem_append] at hs
          rcases hs with hs | hs
          · exact e3 s hs had
          · simp at hs; subst hs; exact hnb
        by_cases hnb : significantlyBetter c.absTol c.relTol x.objective hd.objective = true
        · have hv : classify c (some (hd :: tl)) x = .newBest := by
            unfold classify; rw [hnot]
            simp only [Bool.false_eq_true, if_false]
            unfold significantlyBetter at hnb
            unfold tolerance
            rw [if_pos hnb]
          rw [hv]
          simp only [newSet]
          refine ⟨by simp, fun set hs => ?_⟩
          injection hs with hs; subst hs
          refine ⟨x, [], rfl, hx, fun s hs had => ?_⟩
          rw [List.mem_append] at hs
          rcases hs with hs | hs
          · exact sigBetter_trans ha hr hrf (hf' s hs) hx e2 hnb (e3 s hs had)
          · simp at hs; subst hs; exact not_sigBetter_self ha
        · have hnb' : significantlyBetter c.absTol c.relTol x.objective hd.objective = false := by
            simpa using hnb
          have hv : classify c (some (hd :: tl)) x = .added ∨
              classify c (some (hd :: tl)) x = .dropped := by
            unfold classify; rw [hnot]
            simp only [Bool.false_eq_true, if_false]
            unfold significantlyBetter at hnb
            unfold tolerance
            rw [if_neg hnb]
            split
            · exact Or.inl rfl
            · exact Or.inr rfl
          rcases hv with hv | hv <;> rw [hv] <;> simp only [newSet]
          · refine ⟨by simp, fun set hs => ?_⟩
            injection hs with hs; subst hs
            exact ⟨hd, tl ++ [x], rfl, e2, keep hnb'⟩
          · refine ⟨by simp, fun set hs => ?_⟩
            injection hs with hs; subst hs
            exact ⟨hd, tl, rfl, e2, keep hnb'⟩

/-- C08 (partial: finite objectives), for every sequence of local solutions and every non-negative
tolerance: no admissible solution processed so far is significantly better than the first member, and
the set is missing only if nothing admissible was processed.  Missing: infinite and NaN objectives,
see `C08_nan_head_kept` and `C08_inf_head_kept`. -/
theorem C08_history_partial (o : Opt n) (hist : List (Sol n)) (hnew : o.solset = none)
    (ha : F64.le F64.zero o.absTol = true) (hr : F64.le F64.zero o.relTol = true)
    (hrf : o.relTol.isFinite = true) (hfin : ∀ s ∈ hist, s.objective.isFinite = true) :
    ∀ s ∈ hist, admissible o s → ∃ hd tl, (afterAll o hist).solset = some (hd :: tl) ∧
      significantlyBetter o.absTol o.relTol s.objective hd.objective = false := by
  have h0 : C08Inv o.setCfg o.solset [] := by rw [hnew]; exact ⟨by simp, by simp⟩
  obtain ⟨i1, i2⟩ := c08_fold (c := o.setCfg) hist ha hr hrf hfin h0
  intro s hs had
  rw [afterAll_solset]
  cases hset : setFold o.setCfg o.solset hist with
  | none =>
    obtain ⟨k1, k2⟩ := i1 hset s hs
    have := had k1
    exact absurd this (by rw [show withinBounds o.problem s.point = false from k2]; simp)
  | some set =>
    obtain ⟨hd, tl, e1, _, e3⟩ := i2 set hset
    exact ⟨hd, tl, by rw [e1], e3 s hs had⟩

/-- C08 (partial: finite objectives), for runs: no local solution found during the run is significantly
better than the first returned solution. -/
theorem C08_run_partial (env : Env n) (o : Opt n) (set : List (Sol n)) (hnew : o.solset = none)
    (ha : F64.le F64.zero o.absTol = true) (hr : F64.le F64.zero o.relTol = true)
    (hrf : o.relTol.isFinite = true)
    (hfin : ∀ s ∈ processedBy env o none, s.objective.isFinite = true)
    (h : (run env o none).result = .ok set) :
    ∃ hd tl, set = hd :: tl ∧ ∀ s ∈ processedBy env o none, admissible o s →
      significantlyBetter o.absTol o.relTol s.objective hd.objective = false := by
  have hh := C06_run_is_history env o set hnew h
  have hg := (C05_run env o set hnew h).1.nonempty
  obtain ⟨hd, tl, rfl⟩ : ∃ a b, set = a :: b := by
    cases set with
    | nil => exact absurd rfl hg
    | cons a b => exact ⟨a, b, rfl⟩
  refine ⟨hd, tl, rfl, fun s hs had => ?_⟩
  obtain ⟨hd', tl', e1, e2⟩ := C08_history_partial o _ hnew ha hr hrf hfin s hs had
  rw [hh] at e1
  injection e1 with e1
  injection e1 with e1
  rw [e1]; exact e2

open Witness

/-- An optimizer as built by `OQNLP::new`, with default tolerances. -/
def defOpt : Option (Opt 1) := (Opt.new lin (params 5 6 0)).toOption

def sol (x v : F64) : Sol 1 := ⟨pt x, v⟩

/-- The hypotheses of C07 and C08 hold for the default tolerances. -/
example : (defOpt.map fun o => ([o.solset.isNone, F64.le F64.zero o.absTol, F64.le F64.zero o.relTol,
    o.relTol.isFinite, F64.le o.relTol (F64.lit 1 2)],
    (afterAll o [sol (num 2) (num 3), sol (num 3) (num 2)]).solset.map
      (·.map Sol.objective))) =
    some ([true, true, true, true, true], some [num 2]) := by decide +kernel

/-- C08 is violated by NaN: a first solution with a NaN objective is never replaced. -/
theorem C08_nan_head_kept : ∃ (o : Opt 1), defOpt = some o ∧
    (afterAll o [sol (num 2) F64.nan, sol (num 3) F64.zero]).solset = some [sol (num 2) F64.nan] := by
  have key : (defOpt.map fun o => decide
      ((afterAll o [sol (num 2) F64.nan, sol (num 3) F64.zero]).solset =
        some [sol (num 2) F64.nan])) = some true := by decide +kernel
  cases ho : defOpt with
  | none => rw [ho] at key; cases key
  | some o => rw [ho] at key; exact ⟨o, rfl, by simpa using key⟩

/-- C08 is violated by infinity: with the default tolerances a first solution with objective `+inf` is
never replaced; a better solution at the same point is dropped as a duplicate. -/
theorem C08_inf_head_kept : ∃ (o : Opt 1), defOpt = some o ∧
    (afterAll o [sol (num 2) F64.inf, sol (num 2) F64.zero]).solset = some [sol (num 2) F64.inf] := by
  have key : (defOpt.map fun o => decide
      ((afterAll o [sol (num 2) F64.inf, sol (num 2) F64.zero]).solset =
        some [sol (num 2) F64.inf])) = some true := by decide +kernel
  cases ho : defOpt with
  | none => rw [ho] at key; cases key
  | some o => rw [ho] at key; exact ⟨o, rfl, by simpa using key⟩

/-! ### C07 -/

theorem half_toInt : 2 * uval (F64.lit 1 2).mag = scale := by
  have h : (F64.lit 1 2).mag = 1021 * 2 ^ 52 + 2 ^ 52 := by decide +kernel
  rw [h, uval_mk 1021 (2 ^ 52) (Or.inr ⟨le_refl _, by decide⟩)]
  unfold scale
  rw [show (1074 : Nat) = 1 + (52 + 1021) from rfl, pow_add, pow_add, pow_one]

theorem half_bound {r : F64} (h0 : F64.le F64.zero r = true) (h : F64.le r (F64.lit 1 2) = true) :
    0 ≤ r.key ∧ 2 * uval r.mag ≤ scale ∧ r.isFinite = true := by
  have hz : F64.zero.key = 0 := by decide
  obtain ⟨_, h1, h2⟩ := le_iff.1 h0
  obtain ⟨_, _, h3⟩ := le_iff.1 h
  have hk : 0 ≤ r.key := by omega
  have hm : r.key = r.mag := by
    unfold key at hk ⊢
    split
    · rename_i hc; rw [if_pos hc] at hk; omega
    · rfl
  have hl : (F64.lit 1 2).key = (F64.lit 1 2).mag := by decide +kernel
  have hle : r.mag ≤ (F64.lit 1 2).mag := by omega
  refine ⟨hk, ?_, ?_⟩
  · have := uval_le_iff.2 hle
    have := half_toInt
    omega
  · rw [isFinite_iff]
    have : (F64.lit 1 2).mag < infMag := by decide +kernel
    omega

theorem best_le_mem {set : List (Sol n)} {b s : Sol n} (h : bestSolution set = some b) (hs : s ∈ set) :
    b.objective.tkey ≤ s.objective.tkey := by
  obtain ⟨_, _, h2, _⟩ := reduceSeq_min Sol.objective h
  obtain ⟨j, hj, rfl⟩ := List.getElem_of_mem hs
  exact h2 j _ (List.getElem?_eq_getElem hj)

theorem best_mem {set : List (Sol n)} {b : Sol n} (h : bestSolution set = some b) : b ∈ set := by
  obtain ⟨i, h1, _⟩ := reduceSeq_min Sol.objective h
  exact List.mem_of_getElem? h1

/-- One step of C07: from any state reached with finite objectives. -/
theorem c07_step (o : Opt n) (hist : List (Sol n)) (s : Sol n) (set set' : List (Sol n))
    (b b' : Sol n) (hnew : o.solset = none)
    (ha : F64.le F64.zero o.absTol = true)
    (hr0 : F64.le F64.zero o.relTol = true) (hr : F64.le o.relTol (F64.lit 1 2) = true)
    (hfin : ∀ x ∈ hist ++ [s], x.objective.isFinite = true)
    (h : (afterAll o hist).solset = some set) (hb : bestSolution set = some b)
    (h' : (afterAll o (hist ++ [s])).solset = some set') (hb' : bestSolution set' = some b') :
    F64.le b'.objective b.objective = true := by
  obtain ⟨hk, hr2, hrf⟩ := half_bound hr0 hr
  have hz : F64.zero.key = 0 := by decide
  obtain ⟨_, a2, a3⟩ := le_iff.1 ha
  have hgood := C05_history o hist set (by rw [hnew]; simp) h
  have hmemh : ∀ x ∈ set, x ∈ hist := by
    intro x hx
    rcases hgood.2 x hx with k | ⟨l, k, _⟩
    · exact k
    · rw [hnew] at k; cases k
  have hfinset : ∀ x ∈ set, x.objective.isFinite = true := fun x hx =>
    hfin x (List.mem_append_left _ (hmemh x hx))
  have hbm := best_mem hb
  have hbf := hfinset b hbm
  have hadm : admissible o b := by
    intro hex
    rw [afterAll_solset] at h
    exact setFold_within (c := o.setCfg) hex (by rw [hnew]; simp) set h b hbm
  obtain ⟨hd, tl, e1, hns⟩ := C08_history_partial o hist hnew ha hr0 hrf
    (fun x hx => hfin x (List.mem_append_left _ hx)) b (hmemh b hbm) hadm
  rw [h] at e1
  injection e1 with e1
  subst e1
  rw [afterAll_snoc] at h'
  rw [Opt.process_solset, h, (afterAll_cfg o hist).setCfg] at h'
  cases hv : classify o.setCfg (some (hd :: tl)) s <;> rw [hv] at h' <;> simp only [newSet] at h'
  case first =>
    exfalso
    unfold classify at hv
    split at hv
    · cases hv
    · dsimp only at hv; split at hv
      · cases hv
      · split at hv <;> cases hv
  case newBest =>
    injection h' with h'
    subst h'
    have hbs : b' = s := by
      have := best_mem hb'
      simpa using this
    subst hbs
    have hsf := hfin b' (by simp)
    have hlt : significantlyBetter o.absTol o.relTol b'.objective hd.objective = true := by
      unfold classify at hv
      split at hv
      · cases hv
      · dsimp only at hv
        split at hv
        · rename_i k; exact k
        · split at hv <;> cases hv
    have hle := no_loss (a := o.absTol) (r := o.relTol) (m := b.objective) (s := b'.objective)
      (hd := hd.objective) a2 (by omega) hk hr2 hrf hbf hsf (hfinset hd (by simp)) (by
        intro hn
        by_contra hcon
        have : significantlyBetter o.absTol o.relTol b.objective hd.objective = true :=
          lt_iff.2 ⟨fin_not_nan hbf, hn, by unfold tolerance at hcon; omega⟩
        rw [this] at hns; cases hns) (lt_iff.1 hlt).2.2
    exact le_iff.2 ⟨fin_not_nan hsf, fin_not_nan hbf, hle⟩
  case added =>
    injection h' with h'
    have hmem : b ∈ set' := by
      rw [← h']; simp only [Option.getD_some, List.mem_append]; exact Or.inl hbm
    have hb'f : b'.objective.isFinite = true := by
      have := best_mem hb'
      rw [← h'] at this
      simp only [Option.getD_some, List.mem_append, List.mem_singleton] at this
      rcases this with k | k
      · exact hfinset b' k
      · rw [k]; exact hfin s (by simp)
    exact le_of_tle (fin_not_nan hb'f) (fin_not_nan hbf) (tle_iff.2 (best_le_mem hb' hmem))
  all_goals
    injection h' with h'
    rw [← h', hb] at hb'
    injection hb' with hb'
    subst hb'
    exact le_refl_of (fin_not_nan hbf)

/-- C07 (partial: finite objectives and `rel_tol <= 1/2`), for every history and continuation and
every non-negative `abs_tol`: the best objective of the set never increases.  Missing: larger `rel_tol`,
where it is false (`C07_lost_large_rel_tol`), and non-finite objectives. -/
theorem C07_history_partial (o : Opt n) (hist more : List (Sol n)) (set set' : List (Sol n))
    (b b' : Sol n) (hnew : o.solset = none)
    (ha : F64.le F64.zero o.absTol = true)
    (hr0 : F64.le F64.zero o.relTol = true) (hr : F64.le o.relTol (F64.lit 1 2) = true)
    (hfin : ∀ x ∈ hist ++ more, x.objective.isFinite = true)
    (h : (afterAll o hist).solset = some set) (hb : bestSolution set = some b)
    (h' : (afterAll o (hist ++ more)).solset = some set') (hb' : bestSolution set' = some b') :
    F64.le b'.objective b.objective = true := by
  induction more using List.reverseRecOn generalizing set' b' with
  | nil =>
    rw [List.append_nil, h] at h'
    injection h' with h'
    subst h'
    rw [hb] at hb'; injection hb' with hb'; subst hb'
    have := hfin b (by
      rcases (C05_history o hist set (by rw [hnew]; simp) h).2 b (best_mem hb) with k | ⟨w, k, _⟩
      · simp [k]
      · rw [hnew] at k; cases k)
    exact le_refl_of (fin_not_nan this)
  | append_singleton l s ih =>
    obtain ⟨set1, hd1, i1, i2, _⟩ :=
      C06_history o hist l set (set.head (by rintro rfl; cases best_mem hb)) ha h
        (List.head?_eq_some_head _)
    have hne : set1 ≠ [] := by rintro rfl; cases i2
    obtain ⟨b1, hb1⟩ : ∃ b1, bestSolution set1 = some b1 := by
      cases hbs : bestSolution set1 with
      | none => exact absurd ((C04_none_iff set1).1 hbs) hne
      | some b1 => exact ⟨b1, rfl⟩
    have hle := ih set1 b1 (fun x hx => hfin x (by
      rw [← List.append_assoc]; exact List.mem_append_left _ hx)) i1 hb1
    rw [← List.append_assoc] at h'
    exact le_trans' (c07_step o (hist ++ l) s set1 set' b1 b' hnew ha hr0 hr
      (fun x hx => hfin x (by rw [← List.append_assoc]; exact hx)) i1 hb1 h' hb') hle

/-- C07 (partial: finite objectives and `rel_tol <= 1/2`), for runs: the best returned objective is at
most every objective that was ever in the set, in particular the first one found. -/
theorem C07_run_partial (env : Env n) (o : Opt n) (set : List (Sol n)) (hnew : o.solset = none)
    (ha : F64.le F64.zero o.absTol = true)
    (hr0 : F64.le F64.zero o.relTol = true) (hr : F64.le o.relTol (F64.lit 1 2) = true)
    (hfin : ∀ s ∈ processedBy env o none, s.objective.isFinite = true)
    (h : (run env o none).result = .ok set) (b : Sol n) (hb : bestSolution set = some b)
    (done rest : List (Sol n)) (hsplit : processedBy env o none = done ++ rest)
    (mid : List (Sol n)) (hmid : (afterAll o done).solset = some mid) (s : Sol n) (hs : s ∈ mid) :
    F64.le b.objective s.objective = true := by
  have hh := C06_run_is_history env o set hnew h
  rw [hsplit] at hh hfin
  obtain ⟨b1, hb1⟩ : ∃ b1, bestSolution mid = some b1 := by
    cases hbs : bestSolution mid with
    | none => rw [(C04_none_iff mid).1 hbs] at hs; cases hs
    | some b1 => exact ⟨b1, rfl⟩
  have h1 := C07_history_partial o done rest mid set b1 b hnew ha hr0 hr hfin hmid hb1 hh hb
  have hf : ∀ x ∈ mid, x.objective.isNaN = false := by
    intro x hx
    rcases (C05_history o done mid (by rw [hnew]; simp) hmid).2 x hx with k | ⟨w, k, _⟩
    · exact fin_not_nan (hfin x (by simp [k]))
    · rw [hnew] at k; cases k
  exact le_trans' h1 (C04_le_all mid b1 hb1 hf s hs)

/-- C07 fails for large `rel_tol`: with `rel_tol = 1.5` the objectives 1, -100, -1 leave -1. -/
theorem C07_lost_large_rel_tol : ∃ o : Opt 1, defOpt.map (·.withTolerance F64.zero (F64.lit 3 2)) = some o ∧
    (afterAll o [sol (num 1) (num 1), sol (num 2) (num 100).fneg]).solset =
      some [sol (num 1) (num 1), sol (num 2) (num 100).fneg] ∧
    (afterAll o [sol (num 1) (num 1), sol (num 2) (num 100).fneg, sol (num 3) (num 1).fneg]).solset =
      some [sol (num 3) (num 1).fneg] := by
  have key : ((defOpt.map (·.withTolerance F64.zero (F64.lit 3 2))).map fun o => decide
      ((afterAll o [sol (num 1) (num 1), sol (num 2) (num 100).fneg]).solset =
        some [sol (num 1) (num 1), sol (num 2) (num 100).fneg] ∧
      (afterAll o [sol (num 1) (num 1), sol (num 2) (num 100).fneg,
        sol (num 3) (num 1).fneg]).solset = some [sol (num 3) (num 1).fneg])) = some true := by
    decide +kernel
  cases ho : defOpt.map (·.withTolerance F64.zero (F64.lit 3 2)) with
  | none => rw [ho] at key; cases key
  | some o => rw [ho] at key; exact ⟨o, rfl, by simpa using key⟩

/-- The bound 1/2 is sharp: through rounding C07 fails for `rel_tol = 1/2 + 2^-52`.  The first solution, a little
above -1, is joined by -2, and both are replaced by the next number above -2. -/
theorem C07_lost_rounding : ∃ o : Opt 1, defOpt.map (·.withTolerance F64.zero (F64.lit (2 ^ 51 + 1) (2 ^ 52))) = some o ∧
    (afterAll o [sol (num 1) (F64.lit (2 ^ 53 - 5) (2 ^ 53)).fneg, sol (num 2) (num 2).fneg]).solset =
      some [sol (num 1) (F64.lit (2 ^ 53 - 5) (2 ^ 53)).fneg, sol (num 2) (num 2).fneg] ∧
    (afterAll o [sol (num 1) (F64.lit (2 ^ 53 - 5) (2 ^ 53)).fneg, sol (num 2) (num 2).fneg,
      sol (num 3) (F64.lit (2 ^ 53 - 1) (2 ^ 52)).fneg]).solset =
      some [sol (num 3) (F64.lit (2 ^ 53 - 1) (2 ^ 52)).fneg] ∧
    F64.lt (num 2).fneg (F64.lit (2 ^ 53 - 1) (2 ^ 52)).fneg = true := by
  have key : ((defOpt.map (·.withTolerance F64.zero (F64.lit (2 ^ 51 + 1) (2 ^ 52)))).map fun o => decide
      ((afterAll o [sol (num 1) (F64.lit (2 ^ 53 - 5) (2 ^ 53)).fneg, sol (num 2) (num 2).fneg]).solset =
        some [sol (num 1) (F64.lit (2 ^ 53 - 5) (2 ^ 53)).fneg, sol (num 2) (num 2).fneg] ∧
      (afterAll o [sol (num 1) (F64.lit (2 ^ 53 - 5) (2 ^ 53)).fneg, sol (num 2) (num 2).fneg,
        sol (num 3) (F64.lit (2 ^ 53 - 1) (2 ^ 52)).fneg]).solset =
        some [sol (num 3) (F64.lit (2 ^ 53 - 1) (2 ^ 52)).fneg] ∧
      F64.lt (num 2).fneg (F64.lit (2 ^ 53 - 1) (2 ^ 52)).fneg = true)) = some true := by
    decide +kernel
  cases ho : defOpt.map (·.withTolerance F64.zero (F64.lit (2 ^ 51 + 1) (2 ^ 52))) with
  | none => rw [ho] at key; cases key
  | some o => rw [ho] at key; exact ⟨o, rfl, by simpa using key⟩

end GS.Props
