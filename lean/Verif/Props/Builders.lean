/- Properties of the configuration builders and solver names (C66, C67). -/
import Verif.Model.Builders
import Verif.F64.Round

namespace GS.Props
open GS GS.Builders

/-! ### C66 -/

/-- The value last set for a field by a sequence of calls, or `d` if it was never set.  `sel` says which
value, if any, a call sets for the field. -/
def lastSet {Op V : Type} (sel : Op → Option V) (ops : List Op) (d : V) : V :=
  ((ops.filterMap sel).getLast?).getD d

theorem lastSet_fold {Op B V : Type} {step : B → Op → B} {get : B → V} (sel : Op → Option V)
    (h : ∀ b op, get (step b op) = (sel op).getD (get b)) (ops : List Op) (b : B) :
    get (ops.foldl step b) = lastSet sel ops (get b) := by
  induction ops generalizing b with
  | nil => rfl
  | cons op ops ih =>
    rw [List.foldl_cons, ih, h]
    unfold lastSet
    rw [List.filterMap_cons]
    cases sel op with
    | none => rfl
    | some v =>
      dsimp only
      rw [List.getLast?_cons]
      cases (ops.filterMap sel).getLast? <;> rfl

/-- C66: after any sequence of setter calls on any `LBFGSBuilder`, each field of the built configuration holds the
last value set for it, or the initial one. -/
theorem C66_lbfgs (b : LBFGSBuilder) (ops : List LBFGSBuilder.Op) :
    (ops.foldl LBFGSBuilder.apply b).build = .lbfgs
      (lastSet (fun | .maxIter v => some v | _ => none) ops b.maxIter)
      (lastSet (fun | .toleranceGrad v => some v | _ => none) ops b.toleranceGrad)
      (lastSet (fun | .toleranceCost v => some v | _ => none) ops b.toleranceCost)
      (lastSet (fun | .historySize v => some v | _ => none) ops b.historySize)
      (lastSet (fun | .l1Coefficient v => some v | _ => none) ops b.l1Coefficient)
      (lastSet (fun | .lineSearchParams v => some v | _ => none) ops b.lineSearchParams) := by
  unfold LBFGSBuilder.build
  congr 1
  · exact lastSet_fold (get := LBFGSBuilder.maxIter) _ (fun b op => by cases op <;> rfl) ops b
  · exact lastSet_fold (get := LBFGSBuilder.toleranceGrad) _ (fun b op => by cases op <;> rfl) ops b
  · exact lastSet_fold (get := LBFGSBuilder.toleranceCost) _ (fun b op => by cases op <;> rfl) ops b
  · exact lastSet_fold (get := LBFGSBuilder.historySize) _ (fun b op => by cases op <;> rfl) ops b
  · exact lastSet_fold (get := LBFGSBuilder.l1Coefficient) _ (fun b op => by cases op <;> rfl) ops b
  · exact lastSet_fold (get := LBFGSBuilder.lineSearchParams) _ (fun b op => by cases op <;> rfl) ops b

/-- C66: after any sequence of setter calls on any `NelderMeadBuilder`, each field of the built configuration holds the
last value set for it, or the initial one. -/
theorem C66_neldermead (b : NelderMeadBuilder) (ops : List NelderMeadBuilder.Op) :
    (ops.foldl NelderMeadBuilder.apply b).build = .nelderMead
      (lastSet (fun | .simplexDelta v => some v | _ => none) ops b.simplexDelta)
      (lastSet (fun | .sdTolerance v => some v | _ => none) ops b.sdTolerance)
      (lastSet (fun | .maxIter v => some v | _ => none) ops b.maxIter)
      (lastSet (fun | .alpha v => some v | _ => none) ops b.alpha)
      (lastSet (fun | .gamma v => some v | _ => none) ops b.gamma)
      (lastSet (fun | .rho v => some v | _ => none) ops b.rho)
      (lastSet (fun | .sigma v => some v | _ => none) ops b.sigma) := by
  unfold NelderMeadBuilder.build
  congr 1
  · exact lastSet_fold (get := NelderMeadBuilder.simplexDelta) _ (fun b op => by cases op <;> rfl) ops b
  · exact lastSet_fold (get := NelderMeadBuilder.sdTolerance) _ (fun b op => by cases op <;> rfl) ops b
  · exact lastSet_fold (get := NelderMeadBuilder.maxIter) _ (fun b op => by cases op <;> rfl) ops b
  · exact lastSet_fold (get := NelderMeadBuilder.alpha) _ (fun b op => by cases op <;> rfl) ops b
  · exact lastSet_fold (get := NelderMeadBuilder.gamma) _ (fun b op => by cases op <;> rfl) ops b
  · exact lastSet_fold (get := NelderMeadBuilder.rho) _ (fun b op => by cases op <;> rfl) ops b
  · exact lastSet_fold (get := NelderMeadBuilder.sigma) _ (fun b op => by cases op <;> rfl) ops b

/-- C66: after any sequence of setter calls on any `SteepestDescentBuilder`, each field of the built configuration holds the
last value set for it, or the initial one. -/
theorem C66_steepestdescent (b : SteepestDescentBuilder) (ops : List SteepestDescentBuilder.Op) :
    (ops.foldl SteepestDescentBuilder.apply b).build = .steepestDescent
      (lastSet (fun | .maxIter v => some v | _ => none) ops b.maxIter)
      (lastSet (fun | .lineSearchParams v => some v | _ => none) ops b.lineSearchParams) := by
  unfold SteepestDescentBuilder.build
  congr 1
  · exact lastSet_fold (get := SteepestDescentBuilder.maxIter) _ (fun b op => by cases op <;> rfl) ops b
  · exact lastSet_fold (get := SteepestDescentBuilder.lineSearchParams) _ (fun b op => by cases op <;> rfl) ops b

/-- C66: after any sequence of setter calls on any `TrustRegionBuilder`, each field of the built configuration holds the
last value set for it, or the initial one. -/
theorem C66_trustregion (b : TrustRegionBuilder) (ops : List TrustRegionBuilder.Op) :
    (ops.foldl TrustRegionBuilder.apply b).build = .trustRegion
      (lastSet (fun | .method v => some v | _ => none) ops b.method)
      (lastSet (fun | .maxIter v => some v | _ => none) ops b.maxIter)
      (lastSet (fun | .radius v => some v | _ => none) ops b.radius)
      (lastSet (fun | .maxRadius v => some v | _ => none) ops b.maxRadius)
      (lastSet (fun | .eta v => some v | _ => none) ops b.eta) := by
  unfold TrustRegionBuilder.build
  congr 1
  · exact lastSet_fold (get := TrustRegionBuilder.method) _ (fun b op => by cases op <;> rfl) ops b
  · exact lastSet_fold (get := TrustRegionBuilder.maxIter) _ (fun b op => by cases op <;> rfl) ops b
  · exact lastSet_fold (get := TrustRegionBuilder.radius) _ (fun b op => by cases op <;> rfl) ops b
  · exact lastSet_fold (get := TrustRegionBuilder.maxRadius) _ (fun b op => by cases op <;> rfl) ops b
  · exact lastSet_fold (get := TrustRegionBuilder.eta) _ (fun b op => by cases op <;> rfl) ops b

/-- C66: after any sequence of setter calls on any `NewtonCGBuilder`, each field of the built configuration holds the
last value set for it, or the initial one. -/
theorem C66_newtoncg (b : NewtonCGBuilder) (ops : List NewtonCGBuilder.Op) :
    (ops.foldl NewtonCGBuilder.apply b).build = .newtonCG
      (lastSet (fun | .maxIter v => some v | _ => none) ops b.maxIter)
      (lastSet (fun | .curvatureThreshold v => some v | _ => none) ops b.curvatureThreshold)
      (lastSet (fun | .tolerance v => some v | _ => none) ops b.tolerance)
      (lastSet (fun | .lineSearchParams v => some v | _ => none) ops b.lineSearchParams) := by
  unfold NewtonCGBuilder.build
  congr 1
  · exact lastSet_fold (get := NewtonCGBuilder.maxIter) _ (fun b op => by cases op <;> rfl) ops b
  · exact lastSet_fold (get := NewtonCGBuilder.curvatureThreshold) _ (fun b op => by cases op <;> rfl) ops b
  · exact lastSet_fold (get := NewtonCGBuilder.tolerance) _ (fun b op => by cases op <;> rfl) ops b
  · exact lastSet_fold (get := NewtonCGBuilder.lineSearchParams) _ (fun b op => by cases op <;> rfl) ops b

/-- C66: after any sequence of setter calls on any `MoreThuenteBuilder`, each field of the built configuration holds the
last value set for it, or the initial one. -/
theorem C66_morethuente (b : MoreThuenteBuilder) (ops : List MoreThuenteBuilder.Op) :
    (ops.foldl MoreThuenteBuilder.apply b).build = .moreThuente
      (lastSet (fun | .c1 v => some v | _ => none) ops b.c1)
      (lastSet (fun | .c2 v => some v | _ => none) ops b.c2)
      (lastSet (fun | .widthTolerance v => some v | _ => none) ops b.widthTolerance)
      (lastSet (fun | .bounds v => some v | _ => none) ops b.bounds) := by
  unfold MoreThuenteBuilder.build
  congr 1
  · exact lastSet_fold (get := MoreThuenteBuilder.c1) _ (fun b op => by cases op <;> rfl) ops b
  · exact lastSet_fold (get := MoreThuenteBuilder.c2) _ (fun b op => by cases op <;> rfl) ops b
  · exact lastSet_fold (get := MoreThuenteBuilder.widthTolerance) _ (fun b op => by cases op <;> rfl) ops b
  · exact lastSet_fold (get := MoreThuenteBuilder.bounds) _ (fun b op => by cases op <;> rfl) ops b

/-- C66: after any sequence of setter calls on any `HagerZhangBuilder`, each field of the built configuration holds the
last value set for it, or the initial one. -/
theorem C66_hagerzhang (b : HagerZhangBuilder) (ops : List HagerZhangBuilder.Op) :
    (ops.foldl HagerZhangBuilder.apply b).build = .hagerZhang
      (lastSet (fun | .delta v => some v | _ => none) ops b.delta)
      (lastSet (fun | .sigma v => some v | _ => none) ops b.sigma)
      (lastSet (fun | .epsilon v => some v | _ => none) ops b.epsilon)
      (lastSet (fun | .theta v => some v | _ => none) ops b.theta)
      (lastSet (fun | .gamma v => some v | _ => none) ops b.gamma)
      (lastSet (fun | .eta v => some v | _ => none) ops b.eta)
      (lastSet (fun | .bounds v => some v | _ => none) ops b.bounds) := by
  unfold HagerZhangBuilder.build
  congr 1
  · exact lastSet_fold (get := HagerZhangBuilder.delta) _ (fun b op => by cases op <;> rfl) ops b
  · exact lastSet_fold (get := HagerZhangBuilder.sigma) _ (fun b op => by cases op <;> rfl) ops b
  · exact lastSet_fold (get := HagerZhangBuilder.epsilon) _ (fun b op => by cases op <;> rfl) ops b
  · exact lastSet_fold (get := HagerZhangBuilder.theta) _ (fun b op => by cases op <;> rfl) ops b
  · exact lastSet_fold (get := HagerZhangBuilder.gamma) _ (fun b op => by cases op <;> rfl) ops b
  · exact lastSet_fold (get := HagerZhangBuilder.eta) _ (fun b op => by cases op <;> rfl) ops b
  · exact lastSet_fold (get := HagerZhangBuilder.bounds) _ (fun b op => by cases op <;> rfl) ops b

/-- C66: COBYLA, whose tolerances may be unset; an unset tolerance is built as `1e-6`, `1e-8`, `0` or the
empty list. -/
theorem C66_cobyla (b : COBYLABuilder) (ops : List COBYLABuilder.Op) :
    (ops.foldl COBYLABuilder.apply b).build = .cobyla
      (lastSet (fun | .maxIter v => some v | _ => none) ops b.maxIter)
      (lastSet (fun | .initialStepSize v => some v | _ => none) ops b.initialStepSize)
      (lastSet (fun | .ftolRel v => some v | _ => none) ops (b.ftolRel.getD (F64.lit 1 (10 ^ 6))))
      (lastSet (fun | .ftolAbs v => some v | _ => none) ops (b.ftolAbs.getD (F64.lit 1 (10 ^ 8))))
      (lastSet (fun | .xtolRel v => some v | _ => none) ops (b.xtolRel.getD F64.zero))
      (lastSet (fun | .xtolAbs v => some v | _ => none) ops (b.xtolAbs.getD [])) := by
  unfold COBYLABuilder.build
  congr 1
  · exact lastSet_fold (get := COBYLABuilder.maxIter) _ (fun b op => by cases op <;> rfl) ops b
  · exact lastSet_fold (get := COBYLABuilder.initialStepSize) _ (fun b op => by cases op <;> rfl) ops b
  · exact lastSet_fold (get := fun b : COBYLABuilder => b.ftolRel.getD (F64.lit 1 (10 ^ 6))) _
      (fun b op => by cases op <;> rfl) ops b
  · exact lastSet_fold (get := fun b : COBYLABuilder => b.ftolAbs.getD (F64.lit 1 (10 ^ 8))) _
      (fun b op => by cases op <;> rfl) ops b
  · exact lastSet_fold (get := fun b : COBYLABuilder => b.xtolRel.getD F64.zero) _
      (fun b op => by cases op <;> rfl) ops b
  · exact lastSet_fold (get := fun b : COBYLABuilder => b.xtolAbs.getD []) _
      (fun b op => by cases op <;> rfl) ops b

/-- Setting a field twice and another one in between. -/
example : ([NelderMeadBuilder.Op.alpha F64.zero, .rho F64.one, .alpha F64.two].foldl NelderMeadBuilder.apply
    NelderMeadBuilder.default).build = .nelderMead (F64.lit 1 10) eps 300 F64.two F64.two F64.one (F64.lit 1 2) := rfl

/-- The documented line search defaults: `c1 = 1e-4`, `c2 = 0.9`, width `1e-10`, bounds `[2^-26, ∞]`, as bit
patterns. -/
def documentedMoreThuente : LineSearchMethod :=
  .moreThuente (F64.ofBits 0x3F1A36E2EB1C432D) (F64.ofBits 0x3FECCCCCCCCCCCCD) (F64.ofBits 0x3DDB7CDFD9D7BDBB)
    [F64.ofBits 0x3E50000000000000, F64.ofBits 0x7FF0000000000000]

/-- The documented Hager-Zhang defaults (src/local_solver/builders.rs 1489-1496), as bit patterns. -/
def documentedHagerZhang : LineSearchMethod :=
  .hagerZhang (F64.ofBits 0x3FB999999999999A) (F64.ofBits 0x3FECCCCCCCCCCCCD) (F64.ofBits 0x3EB0C6F7A0B5ED8D)
    (F64.ofBits 0x3FE0000000000000) (F64.ofBits 0x3FE51EB851EB851F) (F64.ofBits 0x3F847AE147AE147B)
    [F64.ofBits 0x3E50000000000000, F64.ofBits 0x7FF0000000000000]

/-- C66: the defaults are the documented ones (all values as IEEE 754 bit patterns).  Missing: the bounds of the
Hager-Zhang line search, where they are not (`C66_hagerzhang_default_violated`). -/
theorem C66_defaults_partial :
    LBFGSBuilder.default.build = .lbfgs 300 (F64.ofBits 0x3E50000000000000) (F64.ofBits 0x3CB0000000000000) 10
      none documentedMoreThuente ∧
    NelderMeadBuilder.default.build = .nelderMead (F64.ofBits 0x3FB999999999999A)
      (F64.ofBits 0x3CB0000000000000) 300 (F64.ofBits 0x3FF0000000000000) (F64.ofBits 0x4000000000000000)
      (F64.ofBits 0x3FE0000000000000) (F64.ofBits 0x3FE0000000000000) ∧
    SteepestDescentBuilder.default.build = .steepestDescent 300 documentedMoreThuente ∧
    TrustRegionBuilder.default.build = .trustRegion .cauchy 300 (F64.ofBits 0x3FF0000000000000)
      (F64.ofBits 0x4059000000000000) (F64.ofBits 0x3FC0000000000000) ∧
    NewtonCGBuilder.default.build = .newtonCG 300 (F64.ofBits 0) (F64.ofBits 0x3CB0000000000000)
      documentedMoreThuente ∧
    COBYLABuilder.default.build = .cobyla 300 (F64.ofBits 0x3FE0000000000000) (F64.ofBits 0x3EB0C6F7A0B5ED8D)
      (F64.ofBits 0x3E45798EE2308C3A) (F64.ofBits 0) [] ∧
    MoreThuenteBuilder.default.build = documentedMoreThuente ∧
    (HagerZhangBuilder.default.setBounds [F64.ofBits 0x3E50000000000000, F64.ofBits 0x7FF0000000000000]).build =
      documentedHagerZhang := by decide +kernel

/-- C66 is violated by the Hager-Zhang line search: its default bounds are `[2^-52, 1e5]`, not the documented
`[2^-26, ∞]`. -/
theorem C66_hagerzhang_default_violated : HagerZhangBuilder.default.build ≠ documentedHagerZhang ∧
    HagerZhangBuilder.default.bounds = [F64.ofBits 0x3CB0000000000000, F64.ofBits 0x40F86A0000000000] := by
  decide +kernel

/-! ### C67 -/

/-- The facts about Unicode lower-casing that are used: ASCII characters are lower-cased as such; the only
other character whose lower case is entirely ASCII is the Kelvin sign. -/
structure UnicodeLower (lower : Char → List Char) : Prop where
  ascii : ∀ c, c.toNat < 128 → lower c = [c.toLower]
  kelvin : lower '\u212A' = ['k']
  other : ∀ c, 128 ≤ c.toNat → c ≠ '\u212A' → ∃ d ∈ lower c, 128 ≤ d.toNat

/-- The documented names of a solver, in lower case. -/
def solverNames : SolverType → List String
  | .lbfgs => ["lbfgs"]
  | .nelderMead => ["nelder-mead", "neldermead"]
  | .steepestDescent => ["steepestdescent"]
  | .trustRegion => ["trustregion"]
  | .newtonCG => ["newton-cg", "newtoncg"]
  | .cobyla => ["cobyla"]

theorem fromLower_iff (s : List Char) (t : SolverType) :
    fromLower true s = some t ↔ ∃ n ∈ solverNames t, s = n.toList := by
  constructor
  · intro h
    unfold fromLower at h
    simp only [and_true] at h
    split at h
    · cases h; exact ⟨"lbfgs", by decide, by assumption⟩
    split at h
    · cases h; exact ⟨"nelder-mead", by decide, by assumption⟩
    split at h
    · cases h; exact ⟨"neldermead", by decide, by assumption⟩
    split at h
    · cases h; exact ⟨"steepestdescent", by decide, by assumption⟩
    split at h
    · cases h; exact ⟨"trustregion", by decide, by assumption⟩
    split at h
    · cases h; exact ⟨"newton-cg", by decide, by assumption⟩
    split at h
    · cases h; exact ⟨"newtoncg", by decide, by assumption⟩
    split at h
    · cases h; exact ⟨"cobyla", by decide, by assumption⟩
    · cases h
  · rintro ⟨n, hn, rfl⟩
    cases t <;> simp only [solverNames, List.mem_cons, List.not_mem_nil, or_false] at hn
    all_goals first
      | (subst hn; decide)
      | (rcases hn with rfl | rfl <;> decide)

theorem names_ascii (t : SolverType) : ∀ n ∈ solverNames t, ∀ c ∈ n.toList, c.toNat < 128 ∧ c ≠ 'k' := by
  cases t <;> decide

theorem toLower_nonascii {c : Char} (h : 128 ≤ c.toNat) : c.toLower = c := by
  unfold Char.toLower
  split
  · rename_i hc
    exfalso
    have : c.toNat ≤ 90 := by
      have := hc.2
      exact this
    omega
  · rfl

theorem flatMap_lower {lower : Char → List Char} (hl : UnicodeLower lower) {s n : List Char}
    (hn : ∀ c ∈ n, c.toNat < 128 ∧ c ≠ 'k') : s.flatMap lower = n ↔ s.map Char.toLower = n := by
  constructor
  · intro h
    have hs : ∀ c ∈ s, lower c = [c.toLower] := by
      intro c hc
      by_cases h1 : c.toNat < 128
      · exact hl.ascii c h1
      · exfalso
        by_cases h2 : c = '\u212A'
        · subst h2
          exact (hn 'k' (h ▸ List.mem_flatMap.mpr ⟨_, hc, by rw [hl.kelvin]; simp⟩)).2 rfl
        · obtain ⟨d, hd, h3⟩ := hl.other c (by omega) h2
          have := (hn d (h ▸ List.mem_flatMap.mpr ⟨c, hc, hd⟩)).1
          omega
    rw [← h]
    clear h
    induction s with
    | nil => rfl
    | cons c s ih =>
      rw [List.flatMap_cons, List.map_cons, hs c List.mem_cons_self,
        ih fun c hc => hs c (List.mem_cons_of_mem _ hc)]
      rfl
  · intro h
    have hs : ∀ c ∈ s, lower c = [c.toLower] := by
      intro c hc
      refine hl.ascii c ?_
      by_cases h1 : c.toNat < 128
      · exact h1
      · have := (hn c.toLower (h ▸ List.mem_map_of_mem hc)).1
        rw [toLower_nonascii (by omega)] at this
        exact this
    rw [← h]
    clear h
    induction s with
    | nil => rfl
    | cons c s ih =>
      rw [List.flatMap_cons, List.map_cons, hs c List.mem_cons_self,
        ih fun c hc => hs c (List.mem_cons_of_mem _ hc)]
      rfl

/-- C67: a string is accepted as the name of a solver exactly when it is one of its documented names up to
the case of its (ASCII) letters; every other string is rejected. -/
theorem C67_names {lower : Char → List Char} (hl : UnicodeLower lower) (s : List Char) (t : SolverType) :
    fromString lower true s = some t ↔ ∃ n ∈ solverNames t, s.map Char.toLower = n.toList := by
  unfold fromString
  rw [fromLower_iff]
  constructor
  · rintro ⟨n, hn, h⟩
    exact ⟨n, hn, (flatMap_lower hl (names_ascii t n hn)).mp h⟩
  · rintro ⟨n, hn, h⟩
    exact ⟨n, hn, (flatMap_lower hl (names_ascii t n hn)).mpr h⟩

/-- C67: without the argmin feature, exactly the name `cobyla` is accepted, in any case. -/
theorem C67_names_without_argmin {lower : Char → List Char} (hl : UnicodeLower lower) (s : List Char)
    (t : SolverType) :
    fromString lower false s = some t ↔ t = .cobyla ∧ s.map Char.toLower = "cobyla".toList := by
  rw [← flatMap_lower hl (names_ascii .cobyla "cobyla" (by decide))]
  unfold fromString fromLower
  simp only [Bool.false_eq_true, and_false, if_false]
  split
  · rename_i h
    simp only [h, Option.some.injEq, and_true]
    exact eq_comm
  · rename_i h
    exact ⟨fun hc => (by cases hc), fun hc => absurd hc.2 h⟩

/-- C67: no string is a name of two solvers. -/
theorem C67_unambiguous (t t' : SolverType) (n : String) (h : n ∈ solverNames t) (h' : n ∈ solverNames t') :
    t = t' := by
  have h1 := (fromLower_iff n.toList t).mpr ⟨n, h, rfl⟩
  have h2 := (fromLower_iff n.toList t').mpr ⟨n, h', rfl⟩
  rw [h1] at h2
  exact Option.some.inj h2

/-- A table with these properties. -/
def demoLower (c : Char) : List Char := if c = '\u212A' then ['k'] else [c.toLower]

theorem demoLower_ok : UnicodeLower demoLower where
  ascii c h := by
    unfold demoLower
    rw [if_neg]
    rintro rfl
    exact absurd h (by decide)
  kelvin := rfl
  other c h h1 := ⟨c, by unfold demoLower; rw [if_neg h1, toLower_nonascii h]; simp, h⟩

example : fromString demoLower true "Nelder-MEAD".toList = some .nelderMead ∧
    fromString demoLower true "nelder_mead".toList = none := by decide

end GS.Props
