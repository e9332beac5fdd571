/- Model of src/filters.rs. -/
import Verif.Model.Types

namespace GS

/-- `MeritFilter`: src/filters.rs 117-121. -/
structure MeritFilter where
  threshold : F64
deriving DecidableEq

namespace MeritFilter
/-- `MeritFilter::new`: src/filters.rs 131-133. -/
def new : MeritFilter := ⟨F64.inf⟩
/-- `update_threshold`: src/filters.rs 135-137. -/
def update (_ : MeritFilter) (t : F64) : MeritFilter := ⟨t⟩
/-- `check`: src/filters.rs 140-142 (`value <= self.threshold`). -/
def check (f : MeritFilter) (v : F64) : Bool := F64.le v f.threshold
end MeritFilter

/-- `DistanceFilter`: src/filters.rs 196-201. -/
structure DistanceFilter (n : Nat) where
  solutions : List (Sol n)
  params : FilterParams
deriving DecidableEq

/-- `FiltersErrors`: src/filters.rs (negative distance factor). -/
inductive FilterError where
  | negativeDistanceFactor (value : F64)
deriving DecidableEq

namespace DistanceFilter
variable {n : Nat}

/-- `DistanceFilter::new`: src/filters.rs 210-219. -/
def new (params : FilterParams) : Except FilterError (DistanceFilter n) :=
  if F64.lt params.distanceFactor F64.zero then
    .error (.negativeDistanceFactor params.distanceFactor)
  else .ok ⟨[], params⟩

/-- `add_solution`: src/filters.rs 222-224. -/
def add (f : DistanceFilter n) (s : Sol n) : DistanceFilter n :=
  { f with solutions := f.solutions ++ [s] }

/-- `check`: src/filters.rs 227-232. -/
def check (f : DistanceFilter n) (p : Pt n) : Bool :=
  f.solutions.all fun s =>
    F64.gt (dist2 p s.point) (f.params.distanceFactor.mul f.params.distanceFactor)

/-- `set_solutions`: src/filters.rs 242-244. -/
def setSolutions (f : DistanceFilter n) (l : List (Sol n)) : DistanceFilter n :=
  { f with solutions := l }
end DistanceFilter
end GS
