/- Python bindings: python/src/lib.rs and python/src/builders.rs.

Python objects are modelled by what pyo3's `extract` sees.  Arguments have already been converted by pyo3
(`usize`, `u64`, `f64`, lists); the conversion errors of pyo3 for them are outside the model, except the one of
a negative index. -/
import Verif.Model.Builders
import Verif.Model.Oqnlp

namespace GS.Py
open GS GS.Builders

/-- Exceptions seen by the Python caller: python/src/lib.rs 804, 897, 905-908, 959. -/
inductive PyErr where
  | valueError | typeError | indexError | overflowError
  /-- a Rust panic (`PanicException`) -/
  | panic
deriving DecidableEq, Repr

/-! ### Configuration objects -/

/-- `PyHagerZhang`: python/src/builders.rs 49-71. -/
structure PyHagerZhang where
  delta : F64
  sigma : F64
  epsilon : F64
  theta : F64
  gamma : F64
  eta : F64
  bounds : List F64

/-- Defaults of `PyHagerZhang.__new__`: python/src/builders.rs 75-84. -/
def PyHagerZhang.default : PyHagerZhang :=
  ⟨F64.lit 1 10, F64.lit 9 10, F64.lit 1 (10 ^ 6), F64.lit 1 2, F64.lit 66 100, F64.lit 1 100, [sqrtEps, F64.inf]⟩

/-- `PyHagerZhang::to_builder`: python/src/builders.rs 99-109. -/
def PyHagerZhang.toBuilder (p : PyHagerZhang) : HagerZhangBuilder :=
  ⟨p.delta, p.sigma, p.epsilon, p.theta, p.gamma, p.eta, p.bounds⟩

/-- `PyMoreThuente`: python/src/builders.rs 130-143. -/
structure PyMoreThuente where
  c1 : F64
  c2 : F64
  widthTolerance : F64
  bounds : List F64

/-- Defaults of `PyMoreThuente.__new__`: python/src/builders.rs 147-156; the same literal is the default line
search of the solvers (326-340, 551-561, 645-657). -/
def PyMoreThuente.default : PyMoreThuente :=
  ⟨F64.lit 1 10000, F64.lit 9 10, F64.lit 1 (10 ^ 10), [sqrtEps, F64.inf]⟩

/-- `PyMoreThuente::to_builder`: python/src/builders.rs 160-162. -/
def PyMoreThuente.toBuilder (p : PyMoreThuente) : MoreThuenteBuilder :=
  ⟨p.c1, p.c2, p.widthTolerance, p.bounds⟩

/-- `PyLineSearchMethod`, the only field of `PyLineSearchParams`: python/src/builders.rs 172-181. -/
inductive PyLineSearch where
  | moreThuente (p : PyMoreThuente)
  | hagerZhang (p : PyHagerZhang)

/-- The conversion repeated in every `to_builder`: python/src/builders.rs 362-378, 569-585, 674-691. -/
def PyLineSearch.build : PyLineSearch → LineSearchMethod
  | .moreThuente p =>
    ((((MoreThuenteBuilder.default.setC1 p.c1).setC2 p.c2).setWidthTolerance p.widthTolerance).setBounds
      p.bounds).build
  | .hagerZhang p =>
    (((((((HagerZhangBuilder.default.setDelta p.delta).setSigma p.sigma).setEpsilon p.epsilon).setTheta
      p.theta).setGamma p.gamma).setEta p.eta).setBounds p.bounds).build

/-- `PyLBFGS`: python/src/builders.rs 286-321. -/
structure PyLBFGS where
  maxIter : Nat
  toleranceGrad : F64
  toleranceCost : F64
  historySize : Nat
  l1Coefficient : Option F64
  lineSearch : PyLineSearch

/-- Defaults: python/src/builders.rs 325-340. -/
def PyLBFGS.default : PyLBFGS := ⟨300, sqrtEps, eps, 10, none, .moreThuente .default⟩

/-- `PyLBFGS::to_builder`: python/src/builders.rs 361-388. -/
def PyLBFGS.toBuilder (p : PyLBFGS) : LBFGSBuilder :=
  ⟨p.maxIter, p.toleranceGrad, p.toleranceCost, p.historySize, p.l1Coefficient, p.lineSearch.build⟩

/-- `PyNelderMead`: python/src/builders.rs 437-475. -/
structure PyNelderMead where
  simplexDelta : F64
  sdTolerance : F64
  maxIter : Nat
  alpha : F64
  gamma : F64
  rho : F64
  sigma : F64

/-- Defaults: python/src/builders.rs 479-488. -/
def PyNelderMead.default : PyNelderMead :=
  ⟨F64.lit 1 10, eps, 300, F64.one, F64.two, F64.lit 1 2, F64.lit 1 2⟩

/-- `PyNelderMead::to_builder`: python/src/builders.rs 503-513. -/
def PyNelderMead.toBuilder (p : PyNelderMead) : NelderMeadBuilder :=
  ⟨p.simplexDelta, p.sdTolerance, p.maxIter, p.alpha, p.gamma, p.rho, p.sigma⟩

/-- `PySteepestDescent`: python/src/builders.rs 534-546. -/
structure PySteepestDescent where
  maxIter : Nat
  lineSearch : PyLineSearch

/-- Defaults: python/src/builders.rs 550-561. -/
def PySteepestDescent.default : PySteepestDescent := ⟨300, .moreThuente .default⟩

/-- `PySteepestDescent::to_builder`: python/src/builders.rs 568-590. -/
def PySteepestDescent.toBuilder (p : PySteepestDescent) : SteepestDescentBuilder :=
  ⟨p.maxIter, p.lineSearch.build⟩

/-- `PyNewtonCG`: python/src/builders.rs 616-640. -/
structure PyNewtonCG where
  maxIter : Nat
  curvatureThreshold : F64
  tolerance : F64
  lineSearch : PyLineSearch

/-- Defaults: python/src/builders.rs 644-657. -/
def PyNewtonCG.default : PyNewtonCG := ⟨300, F64.zero, eps, .moreThuente .default⟩

/-- `PyNewtonCG::to_builder`: python/src/builders.rs 669-693. -/
def PyNewtonCG.toBuilder (p : PyNewtonCG) : NewtonCGBuilder :=
  ⟨p.maxIter, p.curvatureThreshold, p.tolerance, p.lineSearch.build⟩

/-- `PyTrustRegion`: python/src/builders.rs 753-783. -/
structure PyTrustRegion where
  method : TrustRegionRadiusMethod
  maxIter : Nat
  radius : F64
  maxRadius : F64
  eta : F64

/-- Defaults: python/src/builders.rs 787-794. -/
def PyTrustRegion.default : PyTrustRegion := ⟨.cauchy, 300, F64.one, F64.lit 100 1, F64.lit 1 8⟩

/-- `PyTrustRegion::to_builder`: python/src/builders.rs 807-815 (the enum conversion 741-748 keeps names). -/
def PyTrustRegion.toBuilder (p : PyTrustRegion) : TrustRegionBuilder :=
  ⟨p.method, p.maxIter, p.radius, p.maxRadius, p.eta⟩

/-- `PyCOBYLA`: python/src/builders.rs 895-931. -/
structure PyCOBYLA where
  maxIter : Nat
  stepSize : F64
  ftolRel : Option F64
  ftolAbs : Option F64
  xtolRel : Option F64
  xtolAbs : Option (List F64)

/-- Defaults: python/src/builders.rs 935-943. -/
def PyCOBYLA.default : PyCOBYLA := ⟨300, F64.one, none, none, none, none⟩

/-- `if let Some(v) = … { builder = builder.set(v) }`: python/src/builders.rs 960-974. -/
def setIf {α β : Type} (b : β) (set : β → α → β) : Option α → β
  | none => b
  | some v => set b v

/-- `PyCOBYLA::to_builder`: python/src/builders.rs 957-977. -/
def PyCOBYLA.toBuilder (p : PyCOBYLA) : COBYLABuilder :=
  setIf (setIf (setIf (setIf (COBYLABuilder.new p.maxIter p.stepSize) COBYLABuilder.setFtolRel p.ftolRel)
    COBYLABuilder.setFtolAbs p.ftolAbs) COBYLABuilder.setXtolRel p.xtolRel) COBYLABuilder.setXtolAbs p.xtolAbs

/-- A Python object as told apart by `extract`: python/src/lib.rs 802-895. -/
inductive PyObj where
  | moreThuente (p : PyMoreThuente)
  | hagerZhang (p : PyHagerZhang)
  | lineSearchParams (p : PyLineSearch)
  | lbfgs (p : PyLBFGS)
  | nelderMead (p : PyNelderMead)
  | steepestDescent (p : PySteepestDescent)
  | newtonCG (p : PyNewtonCG)
  | trustRegion (p : PyTrustRegion)
  | cobyla (p : PyCOBYLA)
  | other

/-- `PyLineSearchParams.__new__`: python/src/builders.rs 187-200. -/
def newLineSearchParams : PyObj → Except PyErr PyLineSearch
  | .moreThuente p => .ok (.moreThuente p)
  | .hagerZhang p => .ok (.hagerZhang p)
  | _ => .error .typeError

/-- The line-search argument of `lbfgs`, `steepestdescent` and `newtoncg`: python/src/builders.rs 412-423,
598-609, 705-716. -/
def lineSearchArg : PyObj → Except PyErr PyLineSearch
  | .lineSearchParams p => .ok p
  | .moreThuente p => .ok (.moreThuente p)
  | .hagerZhang p => .ok (.hagerZhang p)
  | _ => .error .typeError

/-- The configuration used by `optimize`: python/src/lib.rs 807-882. -/
def solverConfig (t : SolverType) (config : Option PyObj) : Except PyErr SolverConfig :=
  match config with
  | some c =>
    match t with
    | .lbfgs => match c with
      | .lbfgs p => .ok p.toBuilder.build
      | _ => .error .valueError
    | .nelderMead => match c with
      | .nelderMead p => .ok p.toBuilder.build
      | _ => .error .valueError
    | .steepestDescent => match c with
      | .steepestDescent p => .ok p.toBuilder.build
      | _ => .error .valueError
    | .newtonCG => match c with
      | .newtonCG p => .ok p.toBuilder.build
      | _ => .error .valueError
    | .trustRegion => match c with
      | .trustRegion p => .ok p.toBuilder.build
      | _ => .error .valueError
    | .cobyla => match c with
      | .cobyla p => .ok p.toBuilder.build
      | _ => .error .valueError
  | none =>
    match t with
    | .lbfgs => .ok LBFGSBuilder.default.build
    | .newtonCG => .ok NewtonCGBuilder.default.build
    | .trustRegion => .ok TrustRegionBuilder.default.build
    | .nelderMead => .ok NelderMeadBuilder.default.build
    | .steepestDescent => .ok SteepestDescentBuilder.default.build
    | .cobyla => .ok COBYLABuilder.default.build

/-! ### Arrays from nested lists -/

/-- `Array2::from_shape_vec((r, c), data)` (dependency `ndarray`), as the list of rows; fails when the
number of elements differs: python/src/lib.rs 652, 903-905. -/
def fromShape (r c : Nat) (data : List F64) : Option (List (List F64)) :=
  if data.length = r * c then some ((List.range r).map fun i => (data.drop (i * c)).take c) else none

/-- `cols`: python/src/lib.rs 602-603, 898-899. -/
def firstLength : List (List F64) → Nat
  | [] => 0
  | r :: _ => r.length

/-- `variable_bounds`: python/src/lib.rs 588-612; `none` is a failing call or a result that is no nested list of
floats. -/
def variableBounds : Option (List (List F64)) → Except PyErr (List (List F64))
  | none => .error .panic
  | some rows =>
    match fromShape rows.length (firstLength rows) rows.flatten with
    | some a => .ok a
    | none => .error .panic

/-- The `with_points` argument: python/src/lib.rs 896-903. -/
def pointsArray (rows : List (List F64)) : Except PyErr (List (List F64)) :=
  match fromShape rows.length (firstLength rows) rows.flatten with
  | some a => .ok a
  | none => .error .valueError

/-- `hessian`: python/src/lib.rs 637-659, on the nested list returned by the user. -/
def hessianArray (rows : List (List F64)) : Option (List (List F64)) :=
  fromShape rows.length rows.length rows.flatten

/-! ### Solution sets -/

/-- `PyLocalSolution`: python/src/lib.rs 197-213. -/
structure PySol where
  point : List F64
  objective : F64
deriving DecidableEq

/-- Conversion of a solution: python/src/lib.rs 977-980. -/
def PySol.ofSol {n : Nat} (s : Sol n) : PySol := ⟨List.ofFn s.point, s.objective⟩

/-- `PySolutionSet.__len__`: python/src/lib.rs 295-297. -/
def len (s : List PySol) : Nat := s.length

/-- `PySolutionSet.is_empty`: python/src/lib.rs 303-305. -/
def isEmpty (s : List PySol) : Bool := s.isEmpty

/-- `PySolutionSet.best_solution`: python/src/lib.rs 311-313. -/
def best (s : List PySol) : Option PySol := reduceSeq (minOp PySol.objective) s

/-- `PySolutionSet.__getitem__`: python/src/lib.rs 322-327; pyo3 converts the index to `usize` first. -/
def getItem (s : List PySol) (i : Int) : Except PyErr PySol :=
  if i < 0 then .error .overflowError
  else
    match s[i.toNat]? with
    | some x => .ok x
    | none => .error .indexError

/-- `PySolutionSetIterator`: python/src/lib.rs 364-368. -/
structure PyIter where
  inner : List PySol
  index : Nat

/-- `__iter__`: python/src/lib.rs 333-336. -/
def iter (s : List PySol) : PyIter := ⟨s, 0⟩

/-- `__next__`: python/src/lib.rs 376-384. -/
def PyIter.next (it : PyIter) : PyIter × Option PySol :=
  match it.inner[it.index]? with
  | some x => ({ it with index := it.index + 1 }, some x)
  | none => (it, none)

/-! ### Observers -/

/-- `PyObserver`: python/src/observers.rs 295-299.  Callbacks are identified by numbers; those of Python
functions are above the three built-in ones. -/
structure PyObs (n : Nat) where
  inner : Obs n
  pythonCallback : Option Nat

/-- A method call on a `PyObserver`: python/src/observers.rs 322-481. -/
inductive PyObsOp where
  | stage1Tracking | stage2Tracking | timing
  | mode (m : Mode)
  | frequency (f : Nat)
  | callback (f : Nat)
  | defaultCallback | stage1Callback | stage2Callback
  | uniqueUpdates

/-- The number of the Rust closure wrapping the Python function `f`: python/src/observers.rs 419-427. -/
def pyCb (f : Nat) : Nat := f + 3

variable {n : Nat}

/-- `PyObserver.__new__`: python/src/observers.rs 307-309. -/
def PyObs.new : PyObs n := ⟨Obs.new, none⟩

/-- The effect of a method call: python/src/observers.rs 322-481. -/
def PyObs.apply (o : PyObs n) : PyObsOp → PyObs n
  | .stage1Tracking => { o with inner := o.inner.withStage1 }
  | .stage2Tracking => { o with inner := o.inner.withStage2 }
  | .timing => { o with inner := o.inner.withTiming }
  | .mode m => { o with inner := o.inner.withMode m }
  | .frequency f => { o with inner := o.inner.withFrequency f }
  | .callback f => { o with pythonCallback := some f }
  | .defaultCallback => { o with inner := o.inner.withDefaultCallback }
  | .stage1Callback => { o with inner := o.inner.withStage1Callback }
  | .stage2Callback => { o with inner := o.inner.withStage2Callback }
  | .uniqueUpdates => { o with inner := o.inner.uniqueUpdates }

/-- `clone_inner`: python/src/observers.rs 591-609. -/
def PyObs.cloneInner (o : PyObs n) : Obs n :=
  match o.pythonCallback with
  | some f => o.inner.withCallback (pyCb f)
  | none => o.inner

/-! ### `optimize` -/

/-- `PyOQNLPParams`: python/src/lib.rs 148-171. -/
structure PyParams where
  iterations : Nat
  populationSize : Nat
  waitCycle : Nat
  thresholdFactor : F64
  distanceFactor : F64
  absTol : F64
  relTol : F64

/-- Defaults of `PyOQNLPParams.__new__`: python/src/lib.rs 390-398. -/
def PyParams.default : PyParams :=
  ⟨300, 1000, 15, F64.lit 2 10, F64.lit 75 100, F64.lit 1 (10 ^ 8), F64.lit 1 (10 ^ 6)⟩

/-- Arguments of `optimize`: python/src/lib.rs 769-797. -/
structure Args (n : Nat) where
  problem : Problem n
  params : PyParams
  observer : Option (PyObs n) := none
  localSolver : Option (List Char) := none
  config : Option PyObj := none
  seed : Option Nat := none
  target : Option F64 := none
  maxTime : Option F64 := none
  verbose : Option Bool := none
  exclude : Option Bool := none
  parallel : Option Bool := none
  points : Option (List (List F64)) := none

/-- `map_err(|e| PyValueError::new_err(e.to_string()))`; a panic stays a panic: python/src/lib.rs 804,
897, 908, 959. -/
def mapErr {α : Type} : Except Err α → Except PyErr α
  | .ok a => .ok a
  | .error .panic => .error .panic
  | .error _ => .error .valueError

/-- The parameters built by `optimize`: python/src/lib.rs 799-893. -/
def params (lower : Char → List Char) (a : Args n) : Except PyErr Params :=
  match fromString lower true (a.localSolver.getD ['c', 'o', 'b', 'y', 'l', 'a']) with
  | none => .error .valueError
  | some t =>
    match solverConfig t a.config with
    | .error e => .error e
    | .ok c =>
      .ok ⟨a.params.iterations, a.params.populationSize, a.params.waitCycle, a.params.thresholdFactor,
        a.params.distanceFactor, t, c, a.seed.getD 0⟩

/-- Custom points: python/src/lib.rs 895-907. -/
def addPoints (o : Opt n) : Option (List (List F64)) → Except PyErr (Opt n)
  | none => .ok o
  | some rows =>
    match pointsArray rows with
    | .error e => .error e
    | .ok arr => mapErr (o.withPoints arr)

/-- `if let Some(v) = … { optimizer.set(v) } else { optimizer }`: python/src/lib.rs 917-934. -/
def setOpt {α : Type} (o : Opt n) (set : Opt n → α → Opt n) : Option α → Opt n
  | some v => set o v
  | none => o

/-- `if flag { optimizer.exclude_out_of_bounds() } else { optimizer }`: python/src/lib.rs 938-942. -/
def setFlag (o : Opt n) (flag : Bool) : Opt n := if flag then o.setExclude true else o

/-- The optional settings: python/src/lib.rs 916-944 (`verbose` only prints). -/
def settings (o : Opt n) (a : Args n) : Opt n :=
  (setFlag
    (setOpt
      (setOpt
        ((setOpt o (fun o (b : PyObs n) => o.addObserver b.cloneInner) a.observer).setParallel
          (a.parallel.getD false))
        Opt.setTarget a.target)
      Opt.setMaxTime a.maxTime)
    (a.exclude.getD false)).withTolerance a.params.absTol a.params.relTol

/-- The optimizer configured by `optimize`: python/src/lib.rs 799-943. -/
def setup (lower : Char → List Char) (a : Args n) : Except PyErr (Opt n) :=
  match params lower a with
  | .error e => .error e
  | .ok p =>
    match mapErr (Opt.new a.problem p) with
    | .error e => .error e
    | .ok o =>
      match addPoints o a.points with
      | .error e => .error e
      | .ok o => .ok (settings o a)

/-- Outcome of `optimize`: the returned value and the caller's observer afterwards: python/src/lib.rs
785-985. -/
structure Result (n : Nat) where
  value : Except PyErr (List PySol)
  observer : Option (PyObs n)

/-- The observer after a successful run: python/src/lib.rs 960-976. -/
def writeBack (b : Option (PyObs n)) (o : Opt n) : Option (PyObs n) :=
  b.map fun b => match o.obs with
    | some u => { b with inner := u }
    | none => b

/-- `optimize`: python/src/lib.rs 785-983. -/
def optimize (lower : Char → List Char) (env : Env n) (a : Args n) : Result n :=
  match setup lower a with
  | .error e => ⟨.error e, a.observer⟩
  | .ok o =>
    let r := run env o none
    match mapErr r.result with
    | .error e => ⟨.error e, a.observer⟩
    | .ok set => ⟨.ok (set.map PySol.ofSol), writeBack a.observer r.final.opt⟩

end GS.Py
