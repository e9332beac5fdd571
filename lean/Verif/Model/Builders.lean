/- Configuration builders: src/local_solver/builders.rs.

A builder is a record; each setter returns the record with one field replaced.  `LineSearchParams` is
identified with its only field.  The sequences of setter calls a user can write are lists of `Op`s. -/
import Verif.Model.Types

namespace GS.Builders

/-- `f64::EPSILON`, i.e. `2^-52`. -/
def eps : F64 := F64.lit 1 (2 ^ 52)

/-- `f64::EPSILON.sqrt()`, i.e. `2^-26` (the square root is exact). -/
def sqrtEps : F64 := F64.lit 1 (2 ^ 26)

/-- `LineSearchParams::default`: src/local_solver/builders.rs 1222-1233. -/
def defaultLineSearch : LineSearchMethod :=
  .moreThuente (F64.lit 1 10000) (F64.lit 9 10) (F64.lit 1 (10 ^ 10)) [sqrtEps, F64.inf]

/-- `LBFGSBuilder`: src/local_solver/builders.rs 378-385; its constructor is `new` (411-427). -/
structure LBFGSBuilder where
  maxIter : Nat
  toleranceGrad : F64
  toleranceCost : F64
  historySize : Nat
  l1Coefficient : Option F64
  lineSearchParams : LineSearchMethod

namespace LBFGSBuilder

/-- `build`: src/local_solver/builders.rs 430-439. -/
def build (b : LBFGSBuilder) : SolverConfig :=
  .lbfgs b.maxIter b.toleranceGrad b.toleranceCost b.historySize b.l1Coefficient b.lineSearchParams

/-- `max_iter`: src/local_solver/builders.rs 445-448. -/
def setMaxIter (b : LBFGSBuilder) (v : Nat) : LBFGSBuilder := { b with maxIter := v }

/-- `tolerance_grad`: src/local_solver/builders.rs 459-462. -/
def setToleranceGrad (b : LBFGSBuilder) (v : F64) : LBFGSBuilder := { b with toleranceGrad := v }

/-- `tolerance_cost`: src/local_solver/builders.rs 473-476. -/
def setToleranceCost (b : LBFGSBuilder) (v : F64) : LBFGSBuilder := { b with toleranceCost := v }

/-- `history_size`: src/local_solver/builders.rs 488-491. -/
def setHistorySize (b : LBFGSBuilder) (v : Nat) : LBFGSBuilder := { b with historySize := v }

/-- `l1_coefficient`: src/local_solver/builders.rs 506-509. -/
def setL1Coefficient (b : LBFGSBuilder) (v : Option F64) : LBFGSBuilder := { b with l1Coefficient := v }

/-- `line_search_params`: src/local_solver/builders.rs 497-500. -/
def setLineSearchParams (b : LBFGSBuilder) (v : LineSearchMethod) : LBFGSBuilder := { b with lineSearchParams := v }

/-- `Default`: src/local_solver/builders.rs 523-533. -/
def default : LBFGSBuilder :=
  ⟨300, sqrtEps, eps, 10, none, defaultLineSearch⟩

/-- A setter call on `LBFGSBuilder`: src/local_solver/builders.rs 409-510. -/
inductive Op where
  | maxIter (v : Nat)
  | toleranceGrad (v : F64)
  | toleranceCost (v : F64)
  | historySize (v : Nat)
  | l1Coefficient (v : Option F64)
  | lineSearchParams (v : LineSearchMethod)

/-- The effect of a setter call: src/local_solver/builders.rs 409-510. -/
def apply (b : LBFGSBuilder) : Op → LBFGSBuilder
  | .maxIter v => b.setMaxIter v
  | .toleranceGrad v => b.setToleranceGrad v
  | .toleranceCost v => b.setToleranceCost v
  | .historySize v => b.setHistorySize v
  | .l1Coefficient v => b.setL1Coefficient v
  | .lineSearchParams v => b.setLineSearchParams v

end LBFGSBuilder

/-- `NelderMeadBuilder`: src/local_solver/builders.rs 562-570; its constructor is `new` (594-604). -/
structure NelderMeadBuilder where
  simplexDelta : F64
  sdTolerance : F64
  maxIter : Nat
  alpha : F64
  gamma : F64
  rho : F64
  sigma : F64

namespace NelderMeadBuilder

/-- `build`: src/local_solver/builders.rs 607-617. -/
def build (b : NelderMeadBuilder) : SolverConfig :=
  .nelderMead b.simplexDelta b.sdTolerance b.maxIter b.alpha b.gamma b.rho b.sigma

/-- `simplex_delta`: src/local_solver/builders.rs 620-623. -/
def setSimplexDelta (b : NelderMeadBuilder) (v : F64) : NelderMeadBuilder := { b with simplexDelta := v }

/-- `sd_tolerance`: src/local_solver/builders.rs 626-629. -/
def setSdTolerance (b : NelderMeadBuilder) (v : F64) : NelderMeadBuilder := { b with sdTolerance := v }

/-- `max_iter`: src/local_solver/builders.rs 632-635. -/
def setMaxIter (b : NelderMeadBuilder) (v : Nat) : NelderMeadBuilder := { b with maxIter := v }

/-- `alpha`: src/local_solver/builders.rs 638-641. -/
def setAlpha (b : NelderMeadBuilder) (v : F64) : NelderMeadBuilder := { b with alpha := v }

/-- `gamma`: src/local_solver/builders.rs 644-647. -/
def setGamma (b : NelderMeadBuilder) (v : F64) : NelderMeadBuilder := { b with gamma := v }

/-- `rho`: src/local_solver/builders.rs 650-653. -/
def setRho (b : NelderMeadBuilder) (v : F64) : NelderMeadBuilder := { b with rho := v }

/-- `sigma`: src/local_solver/builders.rs 656-659. -/
def setSigma (b : NelderMeadBuilder) (v : F64) : NelderMeadBuilder := { b with sigma := v }

/-- `Default`: src/local_solver/builders.rs 674-685. -/
def default : NelderMeadBuilder :=
  ⟨F64.lit 1 10, eps, 300, F64.one, F64.two, F64.lit 1 2, F64.lit 1 2⟩

/-- A setter call on `NelderMeadBuilder`: src/local_solver/builders.rs 592-660. -/
inductive Op where
  | simplexDelta (v : F64)
  | sdTolerance (v : F64)
  | maxIter (v : Nat)
  | alpha (v : F64)
  | gamma (v : F64)
  | rho (v : F64)
  | sigma (v : F64)

/-- The effect of a setter call: src/local_solver/builders.rs 592-660. -/
def apply (b : NelderMeadBuilder) : Op → NelderMeadBuilder
  | .simplexDelta v => b.setSimplexDelta v
  | .sdTolerance v => b.setSdTolerance v
  | .maxIter v => b.setMaxIter v
  | .alpha v => b.setAlpha v
  | .gamma v => b.setGamma v
  | .rho v => b.setRho v
  | .sigma v => b.setSigma v

end NelderMeadBuilder

/-- `SteepestDescentBuilder`: src/local_solver/builders.rs 700-703; its constructor is `new` (728-730). -/
structure SteepestDescentBuilder where
  maxIter : Nat
  lineSearchParams : LineSearchMethod

namespace SteepestDescentBuilder

/-- `build`: src/local_solver/builders.rs 733-738. -/
def build (b : SteepestDescentBuilder) : SolverConfig :=
  .steepestDescent b.maxIter b.lineSearchParams

/-- `max_iter`: src/local_solver/builders.rs 741-744. -/
def setMaxIter (b : SteepestDescentBuilder) (v : Nat) : SteepestDescentBuilder := { b with maxIter := v }

/-- `line_search_params`: src/local_solver/builders.rs 747-750. -/
def setLineSearchParams (b : SteepestDescentBuilder) (v : LineSearchMethod) : SteepestDescentBuilder := { b with lineSearchParams := v }

/-- `Default`: src/local_solver/builders.rs 760-764. -/
def default : SteepestDescentBuilder :=
  ⟨300, defaultLineSearch⟩

/-- A setter call on `SteepestDescentBuilder`: src/local_solver/builders.rs 726-751. -/
inductive Op where
  | maxIter (v : Nat)
  | lineSearchParams (v : LineSearchMethod)

/-- The effect of a setter call: src/local_solver/builders.rs 726-751. -/
def apply (b : SteepestDescentBuilder) : Op → SteepestDescentBuilder
  | .maxIter v => b.setMaxIter v
  | .lineSearchParams v => b.setLineSearchParams v

end SteepestDescentBuilder

/-- `TrustRegionBuilder`: src/local_solver/builders.rs 790-796; its constructor is `new` (820-828). -/
structure TrustRegionBuilder where
  method : TrustRegionRadiusMethod
  maxIter : Nat
  radius : F64
  maxRadius : F64
  eta : F64

namespace TrustRegionBuilder

/-- `build`: src/local_solver/builders.rs 831-839. -/
def build (b : TrustRegionBuilder) : SolverConfig :=
  .trustRegion b.method b.maxIter b.radius b.maxRadius b.eta

/-- `method`: src/local_solver/builders.rs 842-845. -/
def setMethod (b : TrustRegionBuilder) (v : TrustRegionRadiusMethod) : TrustRegionBuilder := { b with method := v }

/-- `max_iter`: src/local_solver/builders.rs 848-851. -/
def setMaxIter (b : TrustRegionBuilder) (v : Nat) : TrustRegionBuilder := { b with maxIter := v }

/-- `radius`: src/local_solver/builders.rs 854-857. -/
def setRadius (b : TrustRegionBuilder) (v : F64) : TrustRegionBuilder := { b with radius := v }

/-- `max_radius`: src/local_solver/builders.rs 860-863. -/
def setMaxRadius (b : TrustRegionBuilder) (v : F64) : TrustRegionBuilder := { b with maxRadius := v }

/-- `eta`: src/local_solver/builders.rs 869-872. -/
def setEta (b : TrustRegionBuilder) (v : F64) : TrustRegionBuilder := { b with eta := v }

/-- `Default`: src/local_solver/builders.rs 884-894. -/
def default : TrustRegionBuilder :=
  ⟨.cauchy, 300, F64.one, F64.lit 100 1, F64.lit 125 1000⟩

/-- A setter call on `TrustRegionBuilder`: src/local_solver/builders.rs 818-873. -/
inductive Op where
  | method (v : TrustRegionRadiusMethod)
  | maxIter (v : Nat)
  | radius (v : F64)
  | maxRadius (v : F64)
  | eta (v : F64)

/-- The effect of a setter call: src/local_solver/builders.rs 818-873. -/
def apply (b : TrustRegionBuilder) : Op → TrustRegionBuilder
  | .method v => b.setMethod v
  | .maxIter v => b.setMaxIter v
  | .radius v => b.setRadius v
  | .maxRadius v => b.setMaxRadius v
  | .eta v => b.setEta v

end TrustRegionBuilder

/-- `NewtonCGBuilder`: src/local_solver/builders.rs 919-924; its constructor is `new` (952-959). -/
structure NewtonCGBuilder where
  maxIter : Nat
  curvatureThreshold : F64
  tolerance : F64
  lineSearchParams : LineSearchMethod

namespace NewtonCGBuilder

/-- `build`: src/local_solver/builders.rs 962-969. -/
def build (b : NewtonCGBuilder) : SolverConfig :=
  .newtonCG b.maxIter b.curvatureThreshold b.tolerance b.lineSearchParams

/-- `max_iter`: src/local_solver/builders.rs 972-975. -/
def setMaxIter (b : NewtonCGBuilder) (v : Nat) : NewtonCGBuilder := { b with maxIter := v }

/-- `curvature_threshold`: src/local_solver/builders.rs 978-981. -/
def setCurvatureThreshold (b : NewtonCGBuilder) (v : F64) : NewtonCGBuilder := { b with curvatureThreshold := v }

/-- `tolerance`: src/local_solver/builders.rs 984-987. -/
def setTolerance (b : NewtonCGBuilder) (v : F64) : NewtonCGBuilder := { b with tolerance := v }

/-- `line_search_params`: src/local_solver/builders.rs 990-993. -/
def setLineSearchParams (b : NewtonCGBuilder) (v : LineSearchMethod) : NewtonCGBuilder := { b with lineSearchParams := v }

/-- `Default`: src/local_solver/builders.rs 1005-1014. -/
def default : NewtonCGBuilder :=
  ⟨300, F64.zero, eps, defaultLineSearch⟩

/-- A setter call on `NewtonCGBuilder`: src/local_solver/builders.rs 950-994. -/
inductive Op where
  | maxIter (v : Nat)
  | curvatureThreshold (v : F64)
  | tolerance (v : F64)
  | lineSearchParams (v : LineSearchMethod)

/-- The effect of a setter call: src/local_solver/builders.rs 950-994. -/
def apply (b : NewtonCGBuilder) : Op → NewtonCGBuilder
  | .maxIter v => b.setMaxIter v
  | .curvatureThreshold v => b.setCurvatureThreshold v
  | .tolerance v => b.setTolerance v
  | .lineSearchParams v => b.setLineSearchParams v

end NewtonCGBuilder

/-- `MoreThuenteBuilder`: src/local_solver/builders.rs 1263-1268; its constructor is `new` (1292-1294). -/
structure MoreThuenteBuilder where
  c1 : F64
  c2 : F64
  widthTolerance : F64
  bounds : List F64

namespace MoreThuenteBuilder

/-- `build`: src/local_solver/builders.rs 1297-1306. -/
def build (b : MoreThuenteBuilder) : LineSearchMethod :=
  .moreThuente b.c1 b.c2 b.widthTolerance b.bounds

/-- `c1`: src/local_solver/builders.rs 1309-1312. -/
def setC1 (b : MoreThuenteBuilder) (v : F64) : MoreThuenteBuilder := { b with c1 := v }

/-- `c2`: src/local_solver/builders.rs 1315-1318. -/
def setC2 (b : MoreThuenteBuilder) (v : F64) : MoreThuenteBuilder := { b with c2 := v }

/-- `width_tolerance`: src/local_solver/builders.rs 1321-1324. -/
def setWidthTolerance (b : MoreThuenteBuilder) (v : F64) : MoreThuenteBuilder := { b with widthTolerance := v }

/-- `bounds`: src/local_solver/builders.rs 1327-1330. -/
def setBounds (b : MoreThuenteBuilder) (v : List F64) : MoreThuenteBuilder := { b with bounds := v }

/-- `Default`: src/local_solver/builders.rs 1342-1351. -/
def default : MoreThuenteBuilder :=
  ⟨F64.lit 1 10000, F64.lit 9 10, F64.lit 1 (10 ^ 10), [sqrtEps, F64.inf]⟩

/-- A setter call on `MoreThuenteBuilder`: src/local_solver/builders.rs 1290-1331. -/
inductive Op where
  | c1 (v : F64)
  | c2 (v : F64)
  | widthTolerance (v : F64)
  | bounds (v : List F64)

/-- The effect of a setter call: src/local_solver/builders.rs 1290-1331. -/
def apply (b : MoreThuenteBuilder) : Op → MoreThuenteBuilder
  | .c1 v => b.setC1 v
  | .c2 v => b.setC2 v
  | .widthTolerance v => b.setWidthTolerance v
  | .bounds v => b.setBounds v

end MoreThuenteBuilder

/-- `HagerZhangBuilder`: src/local_solver/builders.rs 1384-1392; its constructor is `new` (1416-1426). -/
structure HagerZhangBuilder where
  delta : F64
  sigma : F64
  epsilon : F64
  theta : F64
  gamma : F64
  eta : F64
  bounds : List F64

namespace HagerZhangBuilder

/-- `build`: src/local_solver/builders.rs 1429-1441. -/
def build (b : HagerZhangBuilder) : LineSearchMethod :=
  .hagerZhang b.delta b.sigma b.epsilon b.theta b.gamma b.eta b.bounds

/-- `delta`: src/local_solver/builders.rs 1444-1447. -/
def setDelta (b : HagerZhangBuilder) (v : F64) : HagerZhangBuilder := { b with delta := v }

/-- `sigma`: src/local_solver/builders.rs 1450-1453. -/
def setSigma (b : HagerZhangBuilder) (v : F64) : HagerZhangBuilder := { b with sigma := v }

/-- `epsilon`: src/local_solver/builders.rs 1456-1459. -/
def setEpsilon (b : HagerZhangBuilder) (v : F64) : HagerZhangBuilder := { b with epsilon := v }

/-- `theta`: src/local_solver/builders.rs 1462-1465. -/
def setTheta (b : HagerZhangBuilder) (v : F64) : HagerZhangBuilder := { b with theta := v }

/-- `gamma`: src/local_solver/builders.rs 1468-1471. -/
def setGamma (b : HagerZhangBuilder) (v : F64) : HagerZhangBuilder := { b with gamma := v }

/-- `eta`: src/local_solver/builders.rs 1474-1477. -/
def setEta (b : HagerZhangBuilder) (v : F64) : HagerZhangBuilder := { b with eta := v }

/-- `bounds`: src/local_solver/builders.rs 1480-1483. -/
def setBounds (b : HagerZhangBuilder) (v : List F64) : HagerZhangBuilder := { b with bounds := v }

/-- `Default`: src/local_solver/builders.rs 1498-1510. -/
def default : HagerZhangBuilder :=
  ⟨F64.lit 1 10, F64.lit 9 10, F64.lit 1 (10 ^ 6), F64.lit 1 2, F64.lit 66 100, F64.lit 1 100, [eps, F64.lit 100000 1]⟩

/-- A setter call on `HagerZhangBuilder`: src/local_solver/builders.rs 1414-1484. -/
inductive Op where
  | delta (v : F64)
  | sigma (v : F64)
  | epsilon (v : F64)
  | theta (v : F64)
  | gamma (v : F64)
  | eta (v : F64)
  | bounds (v : List F64)

/-- The effect of a setter call: src/local_solver/builders.rs 1414-1484. -/
def apply (b : HagerZhangBuilder) : Op → HagerZhangBuilder
  | .delta v => b.setDelta v
  | .sigma v => b.setSigma v
  | .epsilon v => b.setEpsilon v
  | .theta v => b.setTheta v
  | .gamma v => b.setGamma v
  | .eta v => b.setEta v
  | .bounds v => b.setBounds v

end HagerZhangBuilder

/-- `COBYLABuilder`: src/local_solver/builders.rs 1044-1051. -/
structure COBYLABuilder where
  maxIter : Nat
  initialStepSize : F64
  ftolRel : Option F64
  ftolAbs : Option F64
  xtolRel : Option F64
  xtolAbs : Option (List F64)

namespace COBYLABuilder

/-- `new`: src/local_solver/builders.rs 1075-1084. -/
def new (maxIter : Nat) (initialStepSize : F64) : COBYLABuilder := ⟨maxIter, initialStepSize, none, none, none, none⟩

/-- `build`: src/local_solver/builders.rs 1087-1096. -/
def build (b : COBYLABuilder) : SolverConfig :=
  .cobyla b.maxIter b.initialStepSize (b.ftolRel.getD (F64.lit 1 (10 ^ 6))) (b.ftolAbs.getD (F64.lit 1 (10 ^ 8)))
    (b.xtolRel.getD F64.zero) (b.xtolAbs.getD [])

/-- `max_iter`: src/local_solver/builders.rs 1099-1102. -/
def setMaxIter (b : COBYLABuilder) (v : Nat) : COBYLABuilder := { b with maxIter := v }

/-- `initial_step_size`: src/local_solver/builders.rs 1105-1108. -/
def setInitialStepSize (b : COBYLABuilder) (v : F64) : COBYLABuilder := { b with initialStepSize := v }

/-- `ftol_rel`: src/local_solver/builders.rs 1113-1116. -/
def setFtolRel (b : COBYLABuilder) (v : F64) : COBYLABuilder := { b with ftolRel := some v }

/-- `ftol_abs`: src/local_solver/builders.rs 1121-1124. -/
def setFtolAbs (b : COBYLABuilder) (v : F64) : COBYLABuilder := { b with ftolAbs := some v }

/-- `xtol_rel`: src/local_solver/builders.rs 1129-1132. -/
def setXtolRel (b : COBYLABuilder) (v : F64) : COBYLABuilder := { b with xtolRel := some v }

/-- `xtol_abs`: src/local_solver/builders.rs 1140-1143. -/
def setXtolAbs (b : COBYLABuilder) (v : List F64) : COBYLABuilder := { b with xtolAbs := some v }

/-- `Default`: src/local_solver/builders.rs 1154-1165. -/
def default : COBYLABuilder :=
  ⟨300, F64.lit 1 2, some (F64.lit 1 (10 ^ 6)), some (F64.lit 1 (10 ^ 8)), none, none⟩

/-- A setter call on `COBYLABuilder`: src/local_solver/builders.rs 1073-1144. -/
inductive Op where
  | maxIter (v : Nat)
  | initialStepSize (v : F64)
  | ftolRel (v : F64)
  | ftolAbs (v : F64)
  | xtolRel (v : F64)
  | xtolAbs (v : List F64)

/-- The effect of a setter call: src/local_solver/builders.rs 1073-1144. -/
def apply (b : COBYLABuilder) : Op → COBYLABuilder
  | .maxIter v => b.setMaxIter v
  | .initialStepSize v => b.setInitialStepSize v
  | .ftolRel v => b.setFtolRel v
  | .ftolAbs v => b.setFtolAbs v
  | .xtolRel v => b.setXtolRel v
  | .xtolAbs v => b.setXtolAbs v

end COBYLABuilder

/-- `OQNLPParams::default`: src/types.rs 99-125. -/
def defaultParams : Params :=
  ⟨300, 1000, 15, F64.lit 2 10, F64.lit 75 100, .cobyla, COBYLABuilder.default.build, 0⟩

/-- `LocalSolverType::from_string` after `to_lowercase`: src/types.rs 498-518; `argmin` says whether the
feature is on. -/
def fromLower (argmin : Bool) (s : List Char) : Option SolverType :=
  if s = "lbfgs".toList ∧ argmin then some .lbfgs
  else if s = "nelder-mead".toList ∧ argmin then some .nelderMead
  else if s = "neldermead".toList ∧ argmin then some .nelderMead
  else if s = "steepestdescent".toList ∧ argmin then some .steepestDescent
  else if s = "trustregion".toList ∧ argmin then some .trustRegion
  else if s = "newton-cg".toList ∧ argmin then some .newtonCG
  else if s = "newtoncg".toList ∧ argmin then some .newtonCG
  else if s = "cobyla".toList then some .cobyla
  else none

/-- `LocalSolverType::from_string`: src/types.rs 498-518.  `lower` is the Unicode lower-case table of the
standard library, applied character by character (`str::to_lowercase` differs only for the capital sigma at
the end of a word, which lower-cases to a non-ASCII letter in both cases). -/
def fromString (lower : Char → List Char) (argmin : Bool) (s : List Char) : Option SolverType :=
  fromLower argmin (s.flatMap lower)

end GS.Builders
