/- Calls of the configuration classes and builder functions of the Python module: python/src/builders.rs.

pyo3 binds the arguments of a call by position or name; here a call is the record of its bound arguments. A parameter
without default that gets none is a `TypeError`. A Python `None` for a parameter with default `None` is the same as no
argument. Conversion errors of numbers are outside the model. -/
import Verif.Model.Python

namespace GS.Py
open GS GS.Builders

/-- A required argument: python/src/builders.rs 112-126, 165-169, 391-433, 515-530, 592-612, 695-720, 818-830 (pyo3). -/
def required {α : Type} : Option α → Except PyErr α
  | some a => .ok a
  | none => .error .typeError

/-- Arguments of `HagerZhang` and `hagerzhang`: python/src/builders.rs 76-84, 112-126. -/
structure HagerZhangCall where
  delta : Option F64 := none
  sigma : Option F64 := none
  epsilon : Option F64 := none
  theta : Option F64 := none
  gamma : Option F64 := none
  eta : Option F64 := none
  bounds : Option (List F64) := none

/-- `PyHagerZhang.__new__`: python/src/builders.rs 76-95. -/
def HagerZhangCall.cls (a : HagerZhangCall) : Except PyErr PyHagerZhang :=
  .ok ⟨a.delta.getD (F64.lit 1 10), a.sigma.getD (F64.lit 9 10), a.epsilon.getD (F64.lit 1 (10 ^ 6)),
    a.theta.getD (F64.lit 1 2), a.gamma.getD (F64.lit 66 100), a.eta.getD (F64.lit 1 100),
    a.bounds.getD [sqrtEps, F64.inf]⟩

/-- `builders.hagerzhang`: python/src/builders.rs 112-126. -/
def HagerZhangCall.fn (a : HagerZhangCall) : Except PyErr PyHagerZhang := do
  let delta ← required a.delta
  let sigma ← required a.sigma
  let epsilon ← required a.epsilon
  let theta ← required a.theta
  let gamma ← required a.gamma
  let eta ← required a.eta
  let bounds ← required a.bounds
  .ok ⟨delta, sigma, epsilon, theta, gamma, eta, bounds⟩

/-- Arguments of `MoreThuente` and `morethuente`: python/src/builders.rs 148-154, 165-169. -/
structure MoreThuenteCall where
  c1 : Option F64 := none
  c2 : Option F64 := none
  widthTolerance : Option F64 := none
  bounds : Option (List F64) := none

/-- `PyMoreThuente.__new__`: python/src/builders.rs 148-156. -/
def MoreThuenteCall.cls (a : MoreThuenteCall) : Except PyErr PyMoreThuente :=
  .ok ⟨a.c1.getD (F64.lit 1 10000), a.c2.getD (F64.lit 9 10), a.widthTolerance.getD (F64.lit 1 (10 ^ 10)),
    a.bounds.getD [sqrtEps, F64.inf]⟩

/-- `builders.morethuente`: python/src/builders.rs 165-169. -/
def MoreThuenteCall.fn (a : MoreThuenteCall) : Except PyErr PyMoreThuente := do
  let c1 ← required a.c1
  let c2 ← required a.c2
  let widthTolerance ← required a.widthTolerance
  let bounds ← required a.bounds
  .ok ⟨c1, c2, widthTolerance, bounds⟩

/-- The line search argument of a class: only `PyLineSearchParams` is converted, python/src/builders.rs 341-348, 562,
658-663. -/
def lineSearchParamsArg : Option PyObj → Except PyErr PyLineSearch
  | none => .ok (.moreThuente ⟨F64.lit 1 10000, F64.lit 9 10, F64.lit 1 (10 ^ 10), [sqrtEps, F64.inf]⟩)
  | some (.lineSearchParams p) => .ok p
  | some _ => .error .typeError

/-- Arguments of `PyLBFGS` and `lbfgs`: python/src/builders.rs 326-348, 392-411. -/
structure LBFGSCall where
  maxIter : Option Nat := none
  toleranceGrad : Option F64 := none
  toleranceCost : Option F64 := none
  historySize : Option Nat := none
  l1Coefficient : Option F64 := none
  lineSearch : Option PyObj := none

/-- `PyLBFGS.__new__`: python/src/builders.rs 326-357. -/
def LBFGSCall.cls (a : LBFGSCall) : Except PyErr PyLBFGS := do
  let ls ← lineSearchParamsArg a.lineSearch
  .ok ⟨a.maxIter.getD 300, a.toleranceGrad.getD sqrtEps, a.toleranceCost.getD eps, a.historySize.getD 10,
    a.l1Coefficient, ls⟩

/-- `builders.lbfgs`: python/src/builders.rs 391-433. -/
def LBFGSCall.fn (a : LBFGSCall) : Except PyErr PyLBFGS := do
  let maxIter ← required a.maxIter
  let toleranceGrad ← required a.toleranceGrad
  let toleranceCost ← required a.toleranceCost
  let historySize ← required a.historySize
  let obj ← required a.lineSearch
  let ls ← lineSearchArg obj
  .ok ⟨maxIter, toleranceGrad, toleranceCost, historySize, a.l1Coefficient, ls⟩

/-- Arguments of `PyNelderMead` and `neldermead`: python/src/builders.rs 480-488, 515-530. -/
structure NelderMeadCall where
  simplexDelta : Option F64 := none
  sdTolerance : Option F64 := none
  maxIter : Option Nat := none
  alpha : Option F64 := none
  gamma : Option F64 := none
  rho : Option F64 := none
  sigma : Option F64 := none

/-- `PyNelderMead.__new__`: python/src/builders.rs 480-499. -/
def NelderMeadCall.cls (a : NelderMeadCall) : Except PyErr PyNelderMead :=
  .ok ⟨a.simplexDelta.getD (F64.lit 1 10), a.sdTolerance.getD eps, a.maxIter.getD 300, a.alpha.getD F64.one,
    a.gamma.getD F64.two, a.rho.getD (F64.lit 1 2), a.sigma.getD (F64.lit 1 2)⟩

/-- `builders.neldermead`: python/src/builders.rs 515-530. -/
def NelderMeadCall.fn (a : NelderMeadCall) : Except PyErr PyNelderMead := do
  let simplexDelta ← required a.simplexDelta
  let sdTolerance ← required a.sdTolerance
  let maxIter ← required a.maxIter
  let alpha ← required a.alpha
  let gamma ← required a.gamma
  let rho ← required a.rho
  let sigma ← required a.sigma
  .ok ⟨simplexDelta, sdTolerance, maxIter, alpha, gamma, rho, sigma⟩

/-- Arguments of `PySteepestDescent` and `steepestdescent`: python/src/builders.rs 551-562, 592-597. -/
structure SteepestDescentCall where
  maxIter : Option Nat := none
  lineSearch : Option PyObj := none

/-- `PySteepestDescent.__new__`: python/src/builders.rs 551-564. -/
def SteepestDescentCall.cls (a : SteepestDescentCall) : Except PyErr PySteepestDescent := do
  let ls ← lineSearchParamsArg a.lineSearch
  .ok ⟨a.maxIter.getD 300, ls⟩

/-- `builders.steepestdescent`: python/src/builders.rs 591-612. -/
def SteepestDescentCall.fn (a : SteepestDescentCall) : Except PyErr PySteepestDescent := do
  let maxIter ← required a.maxIter
  let obj ← required a.lineSearch
  let ls ← lineSearchArg obj
  .ok ⟨maxIter, ls⟩

/-- Arguments of `PyNewtonCG` and `newtoncg`: python/src/builders.rs 645-663, 695-705. -/
structure NewtonCGCall where
  maxIter : Option Nat := none
  curvatureThreshold : Option F64 := none
  tolerance : Option F64 := none
  lineSearch : Option PyObj := none

/-- `PyNewtonCG.__new__`: python/src/builders.rs 645-665. -/
def NewtonCGCall.cls (a : NewtonCGCall) : Except PyErr PyNewtonCG := do
  let ls ← lineSearchParamsArg a.lineSearch
  .ok ⟨a.maxIter.getD 300, a.curvatureThreshold.getD F64.zero, a.tolerance.getD eps, ls⟩

/-- `builders.newtoncg`: python/src/builders.rs 695-720. -/
def NewtonCGCall.fn (a : NewtonCGCall) : Except PyErr PyNewtonCG := do
  let maxIter ← required a.maxIter
  let curvatureThreshold ← required a.curvatureThreshold
  let tolerance ← required a.tolerance
  let obj ← required a.lineSearch
  let ls ← lineSearchArg obj
  .ok ⟨maxIter, curvatureThreshold, tolerance, ls⟩

/-- Arguments of `PyTrustRegion` and `trustregion`: python/src/builders.rs 788-800, 818-828. -/
structure TrustRegionCall where
  method : Option TrustRegionRadiusMethod := none
  maxIter : Option Nat := none
  radius : Option F64 := none
  maxRadius : Option F64 := none
  eta : Option F64 := none

/-- `PyTrustRegion.__new__`: python/src/builders.rs 788-803. -/
def TrustRegionCall.cls (a : TrustRegionCall) : Except PyErr PyTrustRegion :=
  .ok ⟨a.method.getD .cauchy, a.maxIter.getD 300, a.radius.getD F64.one, a.maxRadius.getD (F64.lit 100 1),
    a.eta.getD (F64.lit 1 8)⟩

/-- `builders.trustregion`: python/src/builders.rs 818-830. -/
def TrustRegionCall.fn (a : TrustRegionCall) : Except PyErr PyTrustRegion := do
  let method ← required a.method
  let maxIter ← required a.maxIter
  let radius ← required a.radius
  let maxRadius ← required a.maxRadius
  let eta ← required a.eta
  .ok ⟨method, maxIter, radius, maxRadius, eta⟩

/-- Arguments of `PyCOBYLA` and `cobyla`: python/src/builders.rs 936-951, 1026-1044. -/
structure COBYLACall where
  maxIter : Option Nat := none
  stepSize : Option F64 := none
  ftolRel : Option F64 := none
  ftolAbs : Option F64 := none
  xtolRel : Option F64 := none
  xtolAbs : Option (List F64) := none

/-- `PyCOBYLA.__new__`: python/src/builders.rs 936-953. -/
def COBYLACall.cls (a : COBYLACall) : Except PyErr PyCOBYLA :=
  .ok ⟨a.maxIter.getD 300, a.stepSize.getD F64.one, a.ftolRel, a.ftolAbs, a.xtolRel, a.xtolAbs⟩

/-- `builders.cobyla`: python/src/builders.rs 1026-1046. -/
def COBYLACall.fn (a : COBYLACall) : Except PyErr PyCOBYLA :=
  .ok ⟨a.maxIter.getD 300, a.stepSize.getD F64.one, a.ftolRel, a.ftolAbs, a.xtolRel, a.xtolAbs⟩

end GS.Py
