/- Hand-written `Clone` and `Debug`: src/local_solver/builders.rs 192-319, src/observers/mod.rs 281-297. -/
import Verif.Model.Observer
import Verif.Model.PyText

namespace GS

/-- `Clone` of `LocalSolverConfig`: src/local_solver/builders.rs 233-319 (`line_search_params` and
`trust_region_radius_method` have a derived `Clone`, which copies). -/
def SolverConfig.clone : SolverConfig → SolverConfig
  | .lbfgs maxIter toleranceGrad toleranceCost historySize l1Coefficient lineSearch =>
      .lbfgs maxIter toleranceGrad toleranceCost historySize l1Coefficient lineSearch
  | .nelderMead simplexDelta sdTolerance maxIter alpha gamma rho sigma =>
      .nelderMead simplexDelta sdTolerance maxIter alpha gamma rho sigma
  | .steepestDescent maxIter lineSearch => .steepestDescent maxIter lineSearch
  | .trustRegion method maxIter radius maxRadius eta => .trustRegion method maxIter radius maxRadius eta
  | .newtonCG maxIter curvatureThreshold tolerance lineSearch =>
      .newtonCG maxIter curvatureThreshold tolerance lineSearch
  | .cobyla maxIter initialStepSize ftolRel ftolAbs xtolRel xtolAbs =>
      .cobyla maxIter initialStepSize ftolRel ftolAbs xtolRel xtolAbs

/-- `Debug` of `LocalSolverConfig` (`{:?}`): src/local_solver/builders.rs 192-231. `finish_non_exhaustive` of a struct
without fields writes `{ .. }`. -/
def SolverConfig.debug (w : Py.Words) : SolverConfig → List Char
  | .lbfgs .. => "LBFGS { .. }".toList
  | .nelderMead .. => "NelderMead { .. }".toList
  | .steepestDescent .. => "SteepestDescent { .. }".toList
  | .trustRegion .. => "TrustRegion { .. }".toList
  | .newtonCG .. => "NewtonCG { .. }".toList
  | .cobyla maxIter initialStepSize ftolRel ftolAbs xtolRel xtolAbs =>
      "COBYLA { max_iter: ".toList ++ (w.nat maxIter ++
        (", initial_step_size: ".toList ++ (w.dbg initialStepSize ++
          (", ftol_rel: ".toList ++ (w.dbg ftolRel ++
            (", ftol_abs: ".toList ++ (w.dbg ftolAbs ++
              (", xtol_rel: ".toList ++ (w.dbg xtolRel ++
                (", xtol_abs: ".toList ++ (Py.vec w xtolAbs ++ " }".toList)))))))))))

/-- `Clone` of `Observer`: src/observers/mod.rs 281-297. The lock of `previous_stage2_state` is copied with its contents;
a poisoned lock, which is a panic, is outside the model. -/
def Obs.clone {n : Nat} (o : Obs n) : Obs n where
  mode := o.mode
  stage1 := o.stage1
  stage2 := o.stage2
  trackTiming := o.trackTiming
  startTime := o.startTime
  callback := o.callback
  frequency := o.frequency
  stage1Completed := o.stage1Completed
  stage2Started := o.stage2Started
  prev := o.prev
  filterChanges := o.filterChanges

end GS
