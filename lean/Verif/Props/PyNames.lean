/- C123: the names of the Python module. -/
import Verif.Model.PyNames
import Verif.Props.PyCalls

namespace GS.Py

/-- The names of `pyglobalsearch`. -/
def mainNames : PyAttrs :=
  [("optimize", .fn "optimize"), ("PyOQNLPParams", .cls "PyOQNLPParams"), ("PyProblem", .cls "PyProblem"),
    ("PyLocalSolution", .cls "PyLocalSolution"), ("PySolutionSet", .cls "PySolutionSet"),
    ("builders", .module "builders"), ("observers", .module "observers")]

/-- The names of `pyglobalsearch.builders`. -/
def builderNames : PyAttrs :=
  [("PyLineSearchParams", .cls "PyLineSearchParams"),
    ("PyHagerZhang", .cls "PyHagerZhang"), ("HagerZhang", .cls "PyHagerZhang"), ("hagerzhang", .fn "hagerzhang"),
    ("PyMoreThuente", .cls "PyMoreThuente"), ("MoreThuente", .cls "PyMoreThuente"), ("morethuente", .fn "morethuente"),
    ("PyLBFGS", .cls "PyLBFGS"), ("LBFGS", .cls "PyLBFGS"), ("lbfgs", .fn "lbfgs"),
    ("PyNelderMead", .cls "PyNelderMead"), ("NelderMead", .cls "PyNelderMead"), ("nelder_mead", .cls "PyNelderMead"),
    ("neldermead", .fn "neldermead"),
    ("PySteepestDescent", .cls "PySteepestDescent"), ("SteepestDescent", .cls "PySteepestDescent"),
    ("steepestdescent", .fn "steepestdescent"),
    ("PyNewtonCG", .cls "PyNewtonCG"), ("NewtonCG", .cls "PyNewtonCG"), ("newton_cg", .cls "PyNewtonCG"),
    ("newtoncg", .fn "newtoncg"),
    ("PyTrustRegionRadiusMethod", .cls "PyTrustRegionRadiusMethod"),
    ("TrustRegionRadiusMethod", .cls "PyTrustRegionRadiusMethod"),
    ("PyTrustRegion", .cls "PyTrustRegion"), ("TrustRegion", .cls "PyTrustRegion"), ("trustregion", .fn "trustregion"),
    ("PyCOBYLA", .cls "PyCOBYLA"), ("COBYLA", .cls "PyCOBYLA"), ("cobyla", .fn "cobyla")]

/-- The names of `pyglobalsearch.observers`. -/
def observerNames : PyAttrs :=
  [("PyObserverMode", .cls "PyObserverMode"), ("ObserverMode", .cls "PyObserverMode"),
    ("PyStage1State", .cls "PyStage1State"), ("Stage1State", .cls "PyStage1State"),
    ("PyStage2State", .cls "PyStage2State"), ("Stage2State", .cls "PyStage2State"),
    ("PyObserver", .cls "PyObserver"), ("Observer", .cls "PyObserver")]

theorem get_none {m : PyAttrs} {name : String} (h : ∀ p ∈ m, p.1 ≠ name) : m.get name = none := by
  unfold PyAttrs.get
  rw [List.find?_eq_none.2 fun p hp => by simpa using h p hp]
  rfl

/-- A module with the names of a table, each standing for what the table says, has these names only. -/
theorem get_iff {m t : PyAttrs} (h1 : ∀ p ∈ t, m.get p.1 = some p.2) (h2 : ∀ p ∈ m, p.1 ∈ t.map Prod.fst)
    (name : String) (d : PyDef) : m.get name = some d ↔ (name, d) ∈ t := by
  constructor
  · intro h
    by_cases hn : name ∈ t.map Prod.fst
    · obtain ⟨p, hp, rfl⟩ := List.mem_map.1 hn
      rw [h1 p hp] at h
      cases h
      exact hp
    · rw [get_none (m := m) (name := name) fun p hp he => hn (by rw [← he]; exact h2 p hp)] at h
      cases h
  · exact fun h => h1 _ h

/-- The import succeeds, and the names of the module and its two submodules are exactly those of the tables, each for
the class or function listed. -/
theorem C123_names : ∃ m b o, mainModule = some m ∧ buildersModule = some b ∧ observersModule = some o ∧
    ∀ name d, (m.get name = some d ↔ (name, d) ∈ mainNames) ∧ (b.get name = some d ↔ (name, d) ∈ builderNames) ∧
      (o.get name = some d ↔ (name, d) ∈ observerNames) := by
  refine ⟨_, _, _, rfl, rfl, rfl, fun name d => ⟨get_iff ?_ ?_ name d, get_iff ?_ ?_ name d, get_iff ?_ ?_ name d⟩⟩ <;>
    decide +kernel

/-- The names of the stub file that work as it says (partial): those of the main module except for the configuration
classes, the functions of `builders` except for `steepest_descent`, the observer classes. Missing:
`C123_stub_violated`. -/
theorem C123_stub_partial :
    resolve ["optimize"] = some (.fn "optimize") ∧
    (∀ c ∈ ["PyLocalSolution", "PySolutionSet", "PyOQNLPParams", "PyProblem"], resolve [c] = some (.cls c)) ∧
    (∀ f ∈ ["hagerzhang", "morethuente", "lbfgs", "neldermead", "trustregion", "cobyla"],
      resolve ["builders", f] = some (.fn f)) ∧
    resolve ["builders", "nelder_mead"] = some (.cls "PyNelderMead") ∧
    resolve ["builders", "newton_cg"] = some (.cls "PyNewtonCG") ∧
    (∀ c ∈ ["Observer", "ObserverMode", "Stage1State", "Stage2State"],
      resolve ["observers", c] = some (.cls ("Py" ++ c))) := by
  decide +kernel

/-- Violations: `builders.steepest_descent`, which the stub file declares (python/pyglobalsearch.pyi 1056-1080) and which
its example calls, does not exist; nor do the configuration and observer classes it declares in the main module (443-1556),
which are only in the submodules; `PyLineSearchMethod` is nowhere. -/
theorem C123_stub_violated :
    resolve ["builders", "steepest_descent"] = none ∧
    (∀ c ∈ ["HagerZhang", "MoreThuente", "PyLineSearchParams", "PyLBFGS", "PyNelderMead", "PySteepestDescent",
      "PyNewtonCG", "PyTrustRegionRadiusMethod", "PyTrustRegion", "PyCOBYLA"],
      resolve [c] = none ∧ (resolve ["builders", c]).isSome = true) ∧
    (∀ c ∈ ["PyObserverMode", "PyStage1State", "PyStage2State", "PyObserver"],
      resolve [c] = none ∧ (resolve ["observers", c]).isSome = true) ∧
    ∀ path, resolve (path ++ ["PyLineSearchMethod"]) = none := by
  refine ⟨by decide +kernel, by decide +kernel, by decide +kernel, fun path => ?_⟩
  match path with
  | [] => decide +kernel
  | [a] =>
    show ((mainModule.bind fun m => m.get a).bind _) = none
    have hb : (buildersModule.bind fun m => m.get "PyLineSearchMethod") = none := by decide +kernel
    have ho : (observersModule.bind fun m => m.get "PyLineSearchMethod") = none := by decide +kernel
    cases hm : (mainModule.bind fun m => m.get a) with
    | none => rfl
    | some d =>
      rw [Option.bind_some]
      split
      · exact hb
      · exact ho
      · rfl
  | a :: b :: l =>
    cases l <;> rfl

/-- A class and its short name are the same; a function and a class of a similar name are not. -/
example : resolve ["builders", "LBFGS"] = resolve ["builders", "PyLBFGS"] ∧
    resolve ["builders", "LBFGS"] ≠ resolve ["builders", "lbfgs"] := by decide +kernel

end GS.Py
