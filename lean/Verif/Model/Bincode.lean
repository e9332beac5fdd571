/- The binary format of checkpoint files.

`bincode::serde::{encode_to_vec, decode_from_slice}` with `config::legacy()` (src/checkpoint.rs 241,
284, 430): little-endian, fixed-width integers, `usize` as `u64`, sequence lengths as `u64`, one tag byte
for `Option`, one byte for `bool`, enum variants as `u32`.  The decoders follow the derived
`serde::Deserialize` implementations field by field.  A decoder returns the value and the unread bytes, or
`none` for a decoding error.  (A length prefix larger than memory makes the real decoder abort; here it is
an error.) -/
import Verif.Model.Types

namespace GS

/-- src/checkpoint.rs 241-247, 283-290, 429-436 (dependency `bincode`, legacy configuration). -/
abbrev Bytes := List UInt8

/-- A decoder: value and unread bytes, or an error: src/checkpoint.rs 241-247, 283-290, 429-436
(dependency `bincode`, legacy configuration). -/
abbrev Dec (α : Type) := Bytes → Option (α × Bytes)

namespace Dec
variable {α β : Type}

/-- src/checkpoint.rs 241-247, 283-290, 429-436 (dependency `bincode`, legacy configuration). -/
def pure (a : α) : Dec α := fun b => some (a, b)
/-- src/checkpoint.rs 241-247, 283-290, 429-436 (dependency `bincode`, legacy configuration). -/
def fail : Dec α := fun _ => none
/-- src/checkpoint.rs 241-247, 283-290, 429-436 (dependency `bincode`, legacy configuration). -/
def bind (d : Dec α) (f : α → Dec β) : Dec β := fun b =>
  match d b with
  | none => none
  | some (a, r) => f a r

instance : Monad Dec where
  pure := pure
  bind := bind

/-- One byte: src/checkpoint.rs 241-247, 283-290, 429-436 (dependency `bincode`, legacy configuration). -/
def byte : Dec UInt8
  | [] => none
  | x :: r => some (x, r)

/-- A `k`-byte little-endian number: src/checkpoint.rs 241-247, 283-290, 429-436 (dependency `bincode`,
legacy configuration). -/
def le : Nat → Dec Nat
  | 0 => pure 0
  | k + 1 => bind byte fun x => bind (le k) fun y => pure (x.toNat + 256 * y)

/-- src/checkpoint.rs 241-247, 283-290, 429-436 (dependency `bincode`, legacy configuration). -/
def u64 : Dec Nat := le 8
/-- src/checkpoint.rs 241-247, 283-290, 429-436 (dependency `bincode`, legacy configuration). -/
def u32 : Dec Nat := le 4

/-- The double with the given bits: src/checkpoint.rs 241-247, 283-290, 429-436 (dependency `bincode`,
legacy configuration). -/
def ofBits (b : Nat) : F64 := ⟨decide (2 ^ 63 ≤ b), b % 2 ^ 63, Nat.mod_lt _ (by decide)⟩

/-- src/checkpoint.rs 241-247, 283-290, 429-436 (dependency `bincode`, legacy configuration). -/
def f64 : Dec F64 := bind u64 fun b => pure (ofBits b)

/-- `bool`: any byte other than 0 and 1 is an error: src/checkpoint.rs 241-247, 283-290, 429-436
(dependency `bincode`, legacy configuration). -/
def bool : Dec Bool := bind byte fun x =>
  if x = 0 then pure false else if x = 1 then pure true else fail

/-- `Option<T>`: any tag other than 0 and 1 is an error: src/checkpoint.rs 241-247, 283-290, 429-436
(dependency `bincode`, legacy configuration). -/
def option (d : Dec α) : Dec (Option α) := bind byte fun x =>
  if x = 0 then pure none else if x = 1 then bind d fun a => pure (some a) else fail

/-- `k` values in a row: src/checkpoint.rs 241-247, 283-290, 429-436 (dependency `bincode`, legacy
configuration). -/
def rep (d : Dec α) : Nat → Dec (List α)
  | 0 => pure []
  | k + 1 => bind d fun a => bind (rep d k) fun l => pure (a :: l)

/-- `Vec<T>`: src/checkpoint.rs 241-247, 283-290, 429-436 (dependency `bincode`, legacy configuration). -/
def list (d : Dec α) : Dec (List α) := bind u64 fun k => rep d k

/-- `String`: length, bytes, UTF-8 check: src/checkpoint.rs 241-247, 283-290, 429-436 (dependency
`bincode`, legacy configuration). -/
def str : Dec String := bind u64 fun k => bind (rep byte k) fun l =>
  match String.fromUTF8? ⟨l.toArray⟩ with
  | some s => pure s
  | none => fail

/-- `Array1<T>` as (de)serialized by ndarray: format version 1, dimension, data; the dimension must match
the number of elements: src/checkpoint.rs 241-247, 283-290, 429-436 (dependency `bincode`, legacy
configuration). -/
def array1 (d : Dec α) : Dec (List α) := bind byte fun v =>
  if v = 1 then bind u64 fun k => bind (list d) fun l => if l.length = k then pure l else fail
  else fail

end Dec

namespace Enc

/-- `k`-byte little-endian encoding: src/checkpoint.rs 241-247, 283-290, 429-436 (dependency `bincode`,
legacy configuration). -/
def le : Nat → Nat → Bytes
  | 0, _ => []
  | k + 1, x => UInt8.ofNat (x % 256) :: le k (x / 256)

/-- src/checkpoint.rs 241-247, 283-290, 429-436 (dependency `bincode`, legacy configuration). -/
def u64 (x : Nat) : Bytes := le 8 x
/-- src/checkpoint.rs 241-247, 283-290, 429-436 (dependency `bincode`, legacy configuration). -/
def u32 (x : Nat) : Bytes := le 4 x

/-- Bits of a double: src/checkpoint.rs 241-247, 283-290, 429-436 (dependency `bincode`, legacy
configuration). -/
def bits (x : F64) : Nat := (if x.neg then 2 ^ 63 else 0) + x.mag

/-- src/checkpoint.rs 241-247, 283-290, 429-436 (dependency `bincode`, legacy configuration). -/
def f64 (x : F64) : Bytes := u64 (bits x)
/-- src/checkpoint.rs 241-247, 283-290, 429-436 (dependency `bincode`, legacy configuration). -/
def bool (b : Bool) : Bytes := [if b then 1 else 0]

/-- src/checkpoint.rs 241-247, 283-290, 429-436 (dependency `bincode`, legacy configuration). -/
def option {α : Type} (e : α → Bytes) : Option α → Bytes
  | none => [0]
  | some a => 1 :: e a

/-- src/checkpoint.rs 241-247, 283-290, 429-436 (dependency `bincode`, legacy configuration). -/
def seq {α : Type} (e : α → Bytes) (l : List α) : Bytes := l.flatMap e

/-- src/checkpoint.rs 241-247, 283-290, 429-436 (dependency `bincode`, legacy configuration). -/
def list {α : Type} (e : α → Bytes) (l : List α) : Bytes := u64 l.length ++ seq e l

/-- src/checkpoint.rs 241-247, 283-290, 429-436 (dependency `bincode`, legacy configuration). -/
def str (s : String) : Bytes := list (fun b => [b]) s.toByteArray.data.toList

/-- src/checkpoint.rs 241-247, 283-290, 429-436 (dependency `bincode`, legacy configuration). -/
def array1 {α : Type} (e : α → Bytes) (l : List α) : Bytes :=
  1 :: (u64 l.length ++ list e l)

end Enc

/-- Cargo features that change the format: without `argmin` the enums have only the COBYLA variant
(src/types.rs 457-492, src/local_solver/builders.rs 76-190); without `rayon` two fields of the checkpoint
are missing (src/types.rs 684-689).  No serialized type mentions `progress_bar`. -/
structure Feat where
  argmin : Bool
  rayon : Bool
  progressBar : Bool
deriving DecidableEq

/-- A solution as stored: the point is an `Array1` of any length: src/types.rs 214-219. -/
structure WSol where
  point : List F64
  objective : F64
deriving DecidableEq

/-- `OQNLPCheckpoint` as a Rust value: src/types.rs 642-699.  Points have any length; `rayon` holds
`batch_iterations` and `enable_parallel` in builds that have these fields. -/
structure WCkpt where
  params : Params
  currentIteration : Nat
  meritThreshold : F64
  solutionSet : Option (List WSol)
  referenceSet : List (List F64)
  unchangedCycles : Nat
  elapsedTime : F64
  distanceFilterSolutions : List WSol
  currentSeed : Nat
  targetObjective : Option F64
  excludeOutOfBounds : Bool
  rayon : Option (Option Nat × Bool)
  absTol : F64
  relTol : F64
  timestamp : String
deriving DecidableEq

namespace Enc

/-- Variant index of `LocalSolverType`: src/types.rs 457-492. -/
def solverIndex (f : Feat) : SolverType → Nat
  | .lbfgs => 0
  | .nelderMead => 1
  | .steepestDescent => 2
  | .trustRegion => 3
  | .newtonCG => 4
  | .cobyla => if f.argmin then 5 else 0

/-- src/types.rs 457-492. -/
def solverType (f : Feat) (t : SolverType) : Bytes := u32 (solverIndex f t)

/-- `LineSearchMethod`: src/local_solver/builders.rs 1173-1189. -/
def lineSearch : LineSearchMethod → Bytes
  | .moreThuente c1 c2 w b => u32 0 ++ f64 c1 ++ f64 c2 ++ f64 w ++ array1 f64 b
  | .hagerZhang d s e t g h b =>
    u32 1 ++ f64 d ++ f64 s ++ f64 e ++ f64 t ++ f64 g ++ f64 h ++ array1 f64 b

/-- `TrustRegionRadiusMethod`: src/local_solver/builders.rs 67-70. -/
def radiusMethod : TrustRegionRadiusMethod → Bytes
  | .cauchy => u32 0
  | .steihaug => u32 1

/-- `LocalSolverConfig`: src/local_solver/builders.rs 76-190. -/
def solverConfig (f : Feat) : SolverConfig → Bytes
  | .lbfgs it tg tc h l1 ls =>
    u32 0 ++ u64 it ++ f64 tg ++ f64 tc ++ u64 h ++ option f64 l1 ++ lineSearch ls
  | .nelderMead sd tol it a g r s =>
    u32 1 ++ f64 sd ++ f64 tol ++ u64 it ++ f64 a ++ f64 g ++ f64 r ++ f64 s
  | .steepestDescent it ls => u32 2 ++ u64 it ++ lineSearch ls
  | .trustRegion m it r mr e => u32 3 ++ radiusMethod m ++ u64 it ++ f64 r ++ f64 mr ++ f64 e
  | .newtonCG it c t ls => u32 4 ++ u64 it ++ f64 c ++ f64 t ++ lineSearch ls
  | .cobyla it st fr fa xr xa =>
    u32 (if f.argmin then 5 else 0) ++ u64 it ++ f64 st ++ f64 fr ++ f64 fa ++ f64 xr ++ list f64 xa

/-- `OQNLPParams`: src/types.rs 59-97. -/
def params (f : Feat) (p : Params) : Bytes :=
  u64 p.iterations ++ u64 p.populationSize ++ u64 p.waitCycle ++ f64 p.thresholdFactor ++
    f64 p.distanceFactor ++ solverType f p.solverType ++ solverConfig f p.solverConfig ++ u64 p.seed

/-- `LocalSolution`: src/types.rs 214-219. -/
def sol (s : WSol) : Bytes := array1 f64 s.point ++ f64 s.objective

/-- The two fields of builds with `rayon`: src/types.rs 684-689. -/
def rayon : Option (Option Nat × Bool) → Bytes
  | none => []
  | some (b, p) => option u64 b ++ bool p

/-- `encode_to_vec(checkpoint, legacy())`: src/checkpoint.rs 241-247; fields in the order of
src/types.rs 642-699 (`SolutionSet` is a struct with one `Array1` field, `reference_set` is written as a
vector of vectors, src/types.rs 702-714). -/
def ckpt (f : Feat) (c : WCkpt) : Bytes :=
  params f c.params ++ u64 c.currentIteration ++ f64 c.meritThreshold ++
    option (array1 sol) c.solutionSet ++ list (list f64) c.referenceSet ++ u64 c.unchangedCycles ++
    f64 c.elapsedTime ++ list sol c.distanceFilterSolutions ++ u64 c.currentSeed ++
    option f64 c.targetObjective ++ bool c.excludeOutOfBounds ++ rayon c.rayon ++ f64 c.absTol ++
    f64 c.relTol ++ str c.timestamp

end Enc

namespace Dec

/-- `LocalSolverType`: an unknown variant index is an error: src/types.rs 457-492. -/
def solverType (f : Feat) : Dec SolverType := bind u32 fun i =>
  if f.argmin then
    match i with
    | 0 => pure .lbfgs
    | 1 => pure .nelderMead
    | 2 => pure .steepestDescent
    | 3 => pure .trustRegion
    | 4 => pure .newtonCG
    | 5 => pure .cobyla
    | _ => fail
  else
    match i with
    | 0 => pure .cobyla
    | _ => fail

/-- src/local_solver/builders.rs 1173-1189. -/
def lineSearch : Dec LineSearchMethod := bind u32 fun i =>
  match i with
  | 0 => bind f64 fun c1 => bind f64 fun c2 => bind f64 fun w => bind (array1 f64) fun b =>
    pure (.moreThuente c1 c2 w b)
  | 1 => bind f64 fun d => bind f64 fun s => bind f64 fun e => bind f64 fun t => bind f64 fun g =>
    bind f64 fun h => bind (array1 f64) fun b => pure (.hagerZhang d s e t g h b)
  | _ => fail

/-- src/local_solver/builders.rs 67-70. -/
def radiusMethod : Dec TrustRegionRadiusMethod := bind u32 fun i =>
  match i with
  | 0 => pure .cauchy
  | 1 => pure .steihaug
  | _ => fail

/-- src/local_solver/builders.rs 76-190. -/
def cobyla : Dec SolverConfig :=
  bind u64 fun it => bind f64 fun st => bind f64 fun fr => bind f64 fun fa => bind f64 fun xr =>
    bind (list f64) fun xa => pure (.cobyla it st fr fa xr xa)

/-- src/local_solver/builders.rs 76-190. -/
def solverConfig (f : Feat) : Dec SolverConfig := bind u32 fun i =>
  if f.argmin then
    match i with
    | 0 => bind u64 fun it => bind f64 fun tg => bind f64 fun tc => bind u64 fun h =>
      bind (option f64) fun l1 => bind lineSearch fun ls => pure (.lbfgs it tg tc h l1 ls)
    | 1 => bind f64 fun sd => bind f64 fun tol => bind u64 fun it => bind f64 fun a =>
      bind f64 fun g => bind f64 fun r => bind f64 fun s => pure (.nelderMead sd tol it a g r s)
    | 2 => bind u64 fun it => bind lineSearch fun ls => pure (.steepestDescent it ls)
    | 3 => bind radiusMethod fun m => bind u64 fun it => bind f64 fun r => bind f64 fun mr =>
      bind f64 fun e => pure (.trustRegion m it r mr e)
    | 4 => bind u64 fun it => bind f64 fun c => bind f64 fun t => bind lineSearch fun ls =>
      pure (.newtonCG it c t ls)
    | 5 => cobyla
    | _ => fail
  else
    match i with
    | 0 => cobyla
    | _ => fail

/-- src/types.rs 59-97. -/
def params (f : Feat) : Dec Params :=
  bind u64 fun it => bind u64 fun pop => bind u64 fun w => bind f64 fun t => bind f64 fun d =>
    bind (solverType f) fun ty => bind (solverConfig f) fun cfg => bind u64 fun seed =>
      pure ⟨it, pop, w, t, d, ty, cfg, seed⟩

/-- src/types.rs 214-219. -/
def sol : Dec WSol := bind (array1 f64) fun p => bind f64 fun v => pure ⟨p, v⟩

/-- src/types.rs 642-714. -/
def rayon (f : Feat) : Dec (Option (Option Nat × Bool)) :=
  if f.rayon then bind (option u64) fun b => bind bool fun p => pure (some (b, p))
  else pure none

/-- `decode_from_slice(&encoded, legacy())`: src/checkpoint.rs 283-290, 429-436. -/
def ckpt (f : Feat) : Dec WCkpt :=
  bind (params f) fun p => bind u64 fun it => bind f64 fun thr =>
    bind (option (array1 sol)) fun set => bind (list (list f64)) fun ref => bind u64 fun uc =>
    bind f64 fun el => bind (list sol) fun ds => bind u64 fun sd => bind (option f64) fun tg =>
    bind bool fun ex => bind (rayon f) fun ry => bind f64 fun ab => bind f64 fun re =>
    bind str fun ts => pure ⟨p, it, thr, set, ref, uc, el, ds, sd, tg, ex, ry, ab, re, ts⟩

end Dec

/-! ### Values representable in Rust -/

/-- Lengths are below `2^64` (in Rust they are below `2^63`). -/
def Short {β : Type} (l : List β) : Prop := l.length < 2 ^ 64

instance {β : Type} (l : List β) : Decidable (Short l) := inferInstanceAs (Decidable (_ < _))

/-- Which solver types exist in a build: src/types.rs 457-492. -/
def TypeOk (f : Feat) (t : SolverType) : Prop := f.argmin = false → t = .cobyla

/-- Values of src/local_solver/builders.rs 1173-1189. -/
def LineOk : LineSearchMethod → Prop
  | .moreThuente _ _ _ b => Short b
  | .hagerZhang _ _ _ _ _ _ b => Short b

/-- Values of src/local_solver/builders.rs 76-190. -/
def ConfigOk (f : Feat) : SolverConfig → Prop
  | .lbfgs it _ _ h _ ls => f.argmin = true ∧ it < 2 ^ 64 ∧ h < 2 ^ 64 ∧ LineOk ls
  | .nelderMead _ _ it _ _ _ _ => f.argmin = true ∧ it < 2 ^ 64
  | .steepestDescent it ls => f.argmin = true ∧ it < 2 ^ 64 ∧ LineOk ls
  | .trustRegion _ it _ _ _ => f.argmin = true ∧ it < 2 ^ 64
  | .newtonCG it _ _ ls => f.argmin = true ∧ it < 2 ^ 64 ∧ LineOk ls
  | .cobyla it _ _ _ _ xa => it < 2 ^ 64 ∧ Short xa

/-- Values of src/types.rs 59-97. -/
def ParamsOk (f : Feat) (p : Params) : Prop :=
  p.iterations < 2 ^ 64 ∧ p.populationSize < 2 ^ 64 ∧ p.waitCycle < 2 ^ 64 ∧ p.seed < 2 ^ 64 ∧
    TypeOk f p.solverType ∧ ConfigOk f p.solverConfig

/-- Values of src/types.rs 214-219. -/
def SolOk (s : WSol) : Prop := Short s.point

instance (s : WSol) : Decidable (SolOk s) := inferInstanceAs (Decidable (Short _))

/-- Every value of the Rust type in a build with features `f`: src/types.rs 642-714. -/
structure CkptOk (f : Feat) (c : WCkpt) : Prop where
  params : ParamsOk f c.params
  iter : c.currentIteration < 2 ^ 64
  set : ∀ l, c.solutionSet = some l → Short l ∧ ∀ s ∈ l, SolOk s
  ref : Short c.referenceSet ∧ ∀ p ∈ c.referenceSet, Short p
  unchanged : c.unchangedCycles < 2 ^ 64
  dist : Short c.distanceFilterSolutions ∧ ∀ s ∈ c.distanceFilterSolutions, SolOk s
  seed : c.currentSeed < 2 ^ 64
  rayon : c.rayon.isSome = f.rayon
  batch : ∀ b p, c.rayon = some (some b, p) → b < 2 ^ 64
  stamp : c.timestamp.toByteArray.data.toList.length < 2 ^ 64

/-- Reading a checkpoint file: the unread rest of the file is ignored (src/checkpoint.rs 283, 429). -/
def decodeFile (f : Feat) (b : Bytes) : Option WCkpt := (Dec.ckpt f b).map Prod.fst

/-- The optimizer's checkpoint as a Rust value of a build with `rayon`: src/types.rs 642-714, src/oqnlp.rs
1562-1586. -/
def Ckpt.toWire {n : Nat} (c : Ckpt n) : WCkpt where
  params := c.params
  currentIteration := c.currentIteration
  meritThreshold := c.meritThreshold
  solutionSet := c.solutionSet.map fun l => l.map fun s => ⟨List.ofFn s.point, s.objective⟩
  referenceSet := c.referenceSet.map List.ofFn
  unchangedCycles := c.unchangedCycles
  elapsedTime := c.elapsedTime
  distanceFilterSolutions := c.distanceFilterSolutions.map fun s => ⟨List.ofFn s.point, s.objective⟩
  currentSeed := c.currentSeed
  targetObjective := c.targetObjective
  excludeOutOfBounds := c.excludeOutOfBounds
  rayon := some (c.batchIterations, c.enableParallel)
  absTol := c.absTol
  relTol := c.relTol
  timestamp := c.timestamp

/-- A list of the right length as a point: src/oqnlp.rs 1512-1558, where the library does not check
dimensions. -/
def ptOf (n : Nat) (l : List F64) : Option (Pt n) :=
  if h : l.length = n then some fun i => l[i.1]'(by omega) else none

/-- src/oqnlp.rs 1512-1558, where the library does not check dimensions. -/
def WSol.toSol (n : Nat) (s : WSol) : Option (Sol n) := (ptOf n s.point).map fun p => ⟨p, s.objective⟩

/-- The loaded checkpoint as one for a problem of dimension `n`; `none` if a point has another dimension
(the library does not check this; see DESIGN.md): src/types.rs 642-714, src/oqnlp.rs 1512-1558. -/
def WCkpt.toCkpt (n : Nat) (c : WCkpt) : Option (Ckpt n) := do
  let set ← match c.solutionSet with
    | none => some none
    | some l => (l.mapM (WSol.toSol n)).map some
  let ref ← c.referenceSet.mapM (ptOf n)
  let ds ← c.distanceFilterSolutions.mapM (WSol.toSol n)
  let ry ← c.rayon
  some ⟨c.params, c.currentIteration, c.meritThreshold, set, ref, c.unchangedCycles, c.elapsedTime, ds,
    c.currentSeed, c.targetObjective, c.excludeOutOfBounds, ry.1, ry.2, c.absTol, c.relTol, c.timestamp⟩

end GS
