/- C125: the arguments of `optimize` of the Python module. -/
import Verif.Model.PyArgs
import Verif.Props.Python

namespace GS.Props
open GS GS.Py GS.Builders
variable {n : Nat}

/-- The names of the optional arguments, in the order in which the documentation of `optimize` has them. -/
def optNames : List String :=
  ["observer", "local_solver", "local_solver_config", "seed", "target_objective", "max_time", "verbose",
    "exclude_out_of_bounds", "parallel", "with_points"]

/-- The Python value of an optional argument. -/
def given {α : Type} (f : α → PyVal n) : Option α → PyVal n
  | some x => f x
  | none => .none

/-- The Python values of the optional arguments, in the order of the signature. -/
def valuesOf (a : Args n) : List (PyVal n) :=
  [given .observer a.observer, given .str a.localSolver, given .config a.config, given (fun s : Nat => .int s) a.seed,
    given .float a.target, given .float a.maxTime, given .bool a.verbose, given .bool a.exclude, given .bool a.parallel,
    given .rows a.points]

def isGiven : PyVal n → Bool
  | .none => false
  | _ => true

/-- The arguments from the `k`th on that are given, with their names. -/
def namedFrom (k : Nat) (a : Args n) : List (String × PyVal n) :=
  ((optNames.zip (valuesOf a)).drop k).filter fun p => isGiven p.2

theorem not_given {v : PyVal n} (h : isGiven v = false) : v = .none := by
  cases v <;> first | rfl | cases h

theorem find_key {β : Type} {l : List (String × β)} (hn : (l.map Prod.fst).Nodup) {p : String × β} (hp : p ∈ l) :
    l.find? (fun q => q.1 == p.1) = some p := by
  induction l with
  | nil => cases hp
  | cons q l ih =>
    rw [List.map_cons, List.nodup_cons] at hn
    by_cases he : q.1 = p.1
    · rw [List.find?_cons_of_pos (by simpa using he)]
      rcases List.mem_cons.1 hp with h | h
      · rw [h]
      · exact absurd (he ▸ List.mem_map.2 ⟨p, h, rfl⟩) hn.1
    · rw [List.find?_cons_of_neg (by simpa using he)]
      rcases List.mem_cons.1 hp with h | h
      · exact absurd (by rw [h]) he
      · exact ih hn.2 h

theorem zip_names (a : Args n) : (argNames.zip (valuesOf a)).map Prod.fst = argNames := rfl

theorem value_eq {a : Args n} {k : Nat} {l : List (String × PyVal n)} (hl : l.Perm (namedFrom k a)) {i : Nat}
    {name : String} {v : PyVal n} (hi : (argNames.zip (valuesOf a))[i]? = some (name, v)) :
    (OptCall.mk ((valuesOf a).take k) l).value i name = v := by
  have hv : (valuesOf a)[i]? = some v := (List.getElem?_zip_eq_some.1 hi).2
  have hnd : ((argNames.zip (valuesOf a)).map Prod.fst).Nodup := by
    rw [zip_names]
    decide +kernel
  unfold OptCall.value
  by_cases hk : i < k
  · simp only [List.getElem?_take, hk, if_true, hv]
  · have h0 : ((valuesOf a).take k)[i]? = none := by
      rw [List.getElem?_take, if_neg hk]
    have hsub : (namedFrom k a).Sublist (argNames.zip (valuesOf a)) :=
      List.filter_sublist.trans (List.drop_sublist _ _)
    have hndk : (l.map Prod.fst).Nodup := (hl.map Prod.fst).nodup_iff.2 (hnd.sublist (hsub.map _))
    simp only [h0]
    cases hg : isGiven v with
    | true =>
      have hm : (name, v) ∈ l := by
        refine hl.mem_iff.2 (List.mem_filter.2 ⟨?_, hg⟩)
        refine List.mem_of_getElem? (i := i - k) ?_
        rw [List.getElem?_drop, Nat.add_sub_cancel' (Nat.le_of_not_lt hk)]
        exact hi
      rw [find_key hndk hm]
    | false =>
      have hno : l.find? (fun p => p.1 == name) = none := by
        refine List.find?_eq_none.2 fun p hp he => ?_
        have hp' := hl.mem_iff.1 hp
        have h1 := find_key hnd (hsub.subset hp')
        have h2 := find_key hnd (List.mem_of_getElem? hi)
        have hpn : p.1 = name := by simpa using he
        rw [hpn] at h1
        have : p = (name, v) := Option.some.inj (h1.symm.trans h2)
        have hpg := (List.mem_filter.1 hp').2
        rw [this] at hpg
        simp only [hg] at hpg
        cases hpg
      rw [hno, not_given hg]

/-- C125 (partial): arguments given by position in the order of the signature, `None` for those left open, and the
remaining ones by name in any order, are those `optimize` uses; arguments left out are not given. Missing: the order of
the stub file (`C125_stub_violated`). -/
theorem C125_bound_partial (ofInt : Int → Except PyErr F64) (a : Args n) (hs : ∀ s, a.seed = some s → s < 2 ^ 64)
    (k : Nat) (l : List (String × PyVal n)) (hl : l.Perm (namedFrom k a)) :
    (OptCall.mk ((valuesOf a).take k) l).bind ofInt a.problem a.params = .ok a := by
  have hsub : (namedFrom k a).Sublist ((argNames.zip (valuesOf a)).drop k) := List.filter_sublist
  have hok : ((valuesOf a).take k).length ≤ argNames.length ∧
      (∀ q ∈ l, q.1 ∈ argNames.drop ((valuesOf a).take k).length) ∧ (l.map Prod.fst).Nodup := by
    have hlen : (valuesOf a).length = argNames.length := rfl
    refine ⟨by rw [List.length_take]; omega, fun q hq => ?_, ?_⟩
    · have h := List.mem_map_of_mem (f := Prod.fst) (hsub.subset (hl.mem_iff.1 hq))
      rw [List.map_drop, zip_names] at h
      rw [List.length_take, hlen]
      by_cases hk : k ≤ argNames.length
      · rwa [Nat.min_eq_left hk]
      · rw [List.drop_of_length_le (Nat.le_of_not_le hk)] at h
        cases h
    · refine (hl.map Prod.fst).nodup_iff.2 (List.Nodup.sublist ((hsub.trans (List.drop_sublist _ _)).map _) ?_)
      rw [zip_names]
      decide +kernel
  unfold OptCall.bind
  rw [if_pos hok]
  have v0 := value_eq hl (i := 0) (name := "observer") (v := given .observer a.observer) rfl
  have v1 := value_eq hl (i := 1) (name := "local_solver") (v := given .str a.localSolver) rfl
  have v2 := value_eq hl (i := 2) (name := "local_solver_config") (v := given .config a.config) rfl
  have v3 := value_eq hl (i := 3) (name := "seed") (v := given (fun s : Nat => .int s) a.seed) rfl
  have v4 := value_eq hl (i := 4) (name := "target_objective") (v := given .float a.target) rfl
  have v5 := value_eq hl (i := 5) (name := "max_time") (v := given .float a.maxTime) rfl
  have v6 := value_eq hl (i := 6) (name := "verbose") (v := given .bool a.verbose) rfl
  have v7 := value_eq hl (i := 7) (name := "exclude_out_of_bounds") (v := given .bool a.exclude) rfl
  have v8 := value_eq hl (i := 8) (name := "parallel") (v := given .bool a.parallel) rfl
  have v9 := value_eq hl (i := 9) (name := "with_points") (v := given .rows a.points) rfl
  rw [v0, v1, v2, v3, v4, v5, v6, v7, v8, v9]
  have e0 : (given .observer a.observer : PyVal n).toObserver = .ok a.observer := by cases a.observer <;> rfl
  have e1 : (given .str a.localSolver : PyVal n).toStr = .ok a.localSolver := by cases a.localSolver <;> rfl
  have e2 : (given .config a.config : PyVal n).toConfig = .ok a.config := by cases a.config <;> rfl
  have e3 : (given (fun s : Nat => .int s) a.seed : PyVal n).toSeed = .ok a.seed := by
    cases h : a.seed with
    | none => rfl
    | some s =>
      have := hs s h
      dsimp only [given, PyVal.toSeed]
      rw [if_pos ⟨Int.natCast_nonneg s, by exact_mod_cast this⟩, Int.toNat_natCast]
  have ef : ∀ x : Option F64, (given .float x : PyVal n).toFloat ofInt = .ok x := fun x => by cases x <;> rfl
  have eb : ∀ x : Option Bool, (given .bool x : PyVal n).toBool = .ok x := fun x => by cases x <;> rfl
  have e9 : (given .rows a.points : PyVal n).toRows = .ok a.points := by cases a.points <;> rfl
  rw [e0, e1, e2, e3, ef, ef, eb, eb, eb, e9]
  rfl

/-- C125: more arguments than `optimize` has, a name it does not have, and an argument given twice are refused with a
`TypeError`. -/
theorem C125_refused (ofInt : Int → Except PyErr F64) (p : Problem n) (ps : PyParams) (c : OptCall n)
    (h : 10 < c.positional.length ∨ (∃ q ∈ c.named, q.1 ∉ optNames) ∨
      (∃ q ∈ c.named, q.1 ∈ optNames.take c.positional.length) ∨ ¬ (c.named.map Prod.fst).Nodup) :
    c.bind ofInt p ps = .error .typeError := by
  have hn : argNames = optNames := rfl
  unfold OptCall.bind
  rw [hn]
  rw [if_neg]
  rintro ⟨h1, h2, h3⟩
  rcases h with h | ⟨q, hq, h⟩ | ⟨q, hq, h⟩ | h
  · exact absurd h1 (Nat.not_le.2 h)
  · exact h (List.mem_of_mem_drop (h2 q hq))
  · have hnd : optNames.Nodup := by decide +kernel
    rw [← List.take_append_drop c.positional.length optNames] at hnd
    exact (List.nodup_append.1 hnd).2.2 _ h _ (h2 q hq) rfl
  · exact h h3

/-- C125: leaving out the solver, the seed or a flag is the same as passing the default of the stub file. -/
theorem C125_defaults (lower : Char → List Char) (hl : UnicodeLower lower) (env : Env n) (a : Args n) :
    optimize lower env a = optimize lower env { a with
      localSolver := some (a.localSolver.getD "COBYLA".toList), seed := some (a.seed.getD 0),
      verbose := some (a.verbose.getD false), exclude := some (a.exclude.getD false),
      parallel := some (a.parallel.getD false) } := by
  have h1 : fromString lower true ['c', 'o', 'b', 'y', 'l', 'a'] = some .cobyla :=
    (C67_names hl _ .cobyla).mpr ⟨"cobyla", by simp [solverNames], by decide⟩
  have h2 : fromString lower true "COBYLA".toList = some .cobyla :=
    (C67_names hl _ .cobyla).mpr ⟨"cobyla", by simp [solverNames], by decide⟩
  have hp : params lower a = params lower { a with
      localSolver := some (a.localSolver.getD "COBYLA".toList), seed := some (a.seed.getD 0),
      verbose := some (a.verbose.getD false), exclude := some (a.exclude.getD false),
      parallel := some (a.parallel.getD false) } := by
    unfold params
    cases h : a.localSolver with
    | none =>
      simp only [Option.getD_none, Option.getD_some, h1, h2]
    | some s => simp only [Option.getD_some]
  unfold optimize setup
  rw [← hp]
  rfl

/-- C125 is violated: the stub file has the solver name in third place (python/pyglobalsearch.pyi 1606), where the function
has the observer; such a call raises a `TypeError` whatever else is passed. -/
theorem C125_stub_violated (ofInt : Int → Except PyErr F64) (p : Problem n) (ps : PyParams) (s : List Char)
    (vs : List (PyVal n)) (l : List (String × PyVal n)) :
    (OptCall.mk (.str s :: vs) l).bind ofInt p ps = .error .typeError := by
  unfold OptCall.bind
  split
  · rfl
  · rfl

/-- By name, in another order than that of the signature. -/
example (ofInt : Int → Except PyErr F64) (p : Problem n) (ps : PyParams) :
    (OptCall.mk [] [("seed", .int 7), ("local_solver", .str "LBFGS".toList)]).bind ofInt p ps =
      .ok { problem := p, params := ps, localSolver := some "LBFGS".toList, seed := some 7 } :=
  C125_bound_partial ofInt { problem := p, params := ps, localSolver := some "LBFGS".toList, seed := some 7 }
    (by rintro s h; cases h; decide) 0 _ (List.Perm.swap _ _ _)

end GS.Props
