/- The names of the Python module: python/src/lib.rs 1042-1060, python/src/builders.rs 1049-1091,
python/src/observers.rs 613-627. -/

namespace GS.Py

/-- What a name of a module stands for. -/
inductive PyDef where
  | cls (name : String)
  | fn (name : String)
  | module (name : String)
deriving DecidableEq, Repr

/-- The attributes of a module, the last one set first: python/src/lib.rs 1042-1060 (pyo3). -/
abbrev PyAttrs := List (String × PyDef)

/-- `getattr`: python/src/builders.rs 1054, 1058, …, 1088. -/
def PyAttrs.get (m : PyAttrs) (name : String) : Option PyDef := (m.find? fun p => p.1 == name).map Prod.snd

/-- `add_class`: the name is the one of the Rust type, as no class has a `name` argument: python/src/builders.rs
1050-1086 (pyo3). -/
def PyAttrs.addClass (m : PyAttrs) (name : String) : PyAttrs := (name, .cls name) :: m

/-- `add_function`: python/src/builders.rs 1053-1087 (pyo3). -/
def PyAttrs.addFunction (m : PyAttrs) (name : String) : PyAttrs := (name, .fn name) :: m

/-- `m.setattr(new, m.getattr(old)?)?`: python/src/builders.rs 1054, 1058, …, 1088. `none` is an `AttributeError`, with
which the import fails. -/
def PyAttrs.also (m : PyAttrs) (new old : String) : Option PyAttrs := (m.get old).map fun d => (new, d) :: m

/-- `init_module` of `builders`: python/src/builders.rs 1049-1091. -/
def buildersModule : Option PyAttrs := do
  let m : PyAttrs := []
  let m := m.addClass "PyLineSearchParams"
  let m ← ((m.addClass "PyHagerZhang").addFunction "hagerzhang").also "HagerZhang" "PyHagerZhang"
  let m ← ((m.addClass "PyMoreThuente").addFunction "morethuente").also "MoreThuente" "PyMoreThuente"
  let m ← ((m.addClass "PyLBFGS").addFunction "lbfgs").also "LBFGS" "PyLBFGS"
  let m ← ((m.addClass "PyNelderMead").addFunction "neldermead").also "nelder_mead" "PyNelderMead"
  let m ← m.also "NelderMead" "PyNelderMead"
  let m ← ((m.addClass "PySteepestDescent").addFunction "steepestdescent").also "SteepestDescent" "PySteepestDescent"
  let m ← ((m.addClass "PyNewtonCG").addFunction "newtoncg").also "newton_cg" "PyNewtonCG"
  let m ← m.also "NewtonCG" "PyNewtonCG"
  let m ← (m.addClass "PyTrustRegionRadiusMethod").also "TrustRegionRadiusMethod" "PyTrustRegionRadiusMethod"
  let m ← m.also "PyTrustRegionRadiusMethod" "PyTrustRegionRadiusMethod"
  let m ← ((m.addClass "PyTrustRegion").addFunction "trustregion").also "TrustRegion" "PyTrustRegion"
  ((m.addClass "PyCOBYLA").addFunction "cobyla").also "COBYLA" "PyCOBYLA"

/-- `init_module` of `observers`: python/src/observers.rs 613-627. -/
def observersModule : Option PyAttrs := do
  let m : PyAttrs := []
  let m ← (m.addClass "PyObserverMode").also "ObserverMode" "PyObserverMode"
  let m ← (m.addClass "PyStage1State").also "Stage1State" "PyStage1State"
  let m ← (m.addClass "PyStage2State").also "Stage2State" "PyStage2State"
  (m.addClass "PyObserver").also "Observer" "PyObserver"

/-- The module `pyglobalsearch`: python/src/lib.rs 1042-1060. -/
def mainModule : Option PyAttrs := do
  let m : PyAttrs := []
  let m := ((((m.addFunction "optimize").addClass "PyOQNLPParams").addClass "PyProblem").addClass
    "PyLocalSolution").addClass "PySolutionSet"
  let _ ← buildersModule
  let m : PyAttrs := ("builders", .module "builders") :: m
  let _ ← observersModule
  some (("observers", .module "observers") :: m)

/-- `gs.name` or `gs.module.name` after the import: python/src/lib.rs 1042-1060. -/
def resolve : List String → Option PyDef
  | [name] => mainModule.bind fun m => m.get name
  | [mod, name] => (mainModule.bind fun m => m.get mod).bind fun
    | .module "builders" => buildersModule.bind fun m => m.get name
    | .module "observers" => observersModule.bind fun m => m.get name
    | _ => none
  | _ => none

end GS.Py
