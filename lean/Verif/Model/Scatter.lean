/- Model of src/scatter_search.rs (feature `rayon`; progress bar not modelled). -/
import Verif.Model.Runtime
import Mathlib.Data.Nat.Sqrt

namespace GS

/-- `ScatterSearchError`: src/scatter_search.rs 89-124, plus panics. -/
inductive ScatterErr where
  | noCandidates
  | noFeasibleCandidates (attempts dimension : Nat)
  | evaluation (e : EvalErr)
  | invalidBounds (dimension : Nat) (lower upper : F64)
  | panic
deriving DecidableEq

/-- `ScatterSearch`: src/scatter_search.rs 138-154.  `rngPos` counts the numbers drawn from `rng`. -/
structure Scatter (n : Nat) where
  problem : Problem n
  params : Params
  refSet : List (Pt n)
  refObjs : List F64
  rngPos : Nat
  parallel : Bool
  custom : Option (List (Pt n))

namespace Scatter
variable {n : Nat}

/-- `ScatterSearch::new`: src/scatter_search.rs 157-193. -/
def new (problem : Problem n) (params : Params) : Except ScatterErr (Scatter n) :=
  match (List.finRange n).find? fun i => F64.ge (problem.lower i) (problem.upper i) with
  | some i => .error (.invalidBounds i (problem.lower i) (problem.upper i))
  | none => .ok ⟨problem, params, [], [], 0, true, none⟩

/-- `parallel`: src/scatter_search.rs 205-208. -/
def setParallel (s : Scatter n) (b : Bool) : Scatter n := { s with parallel := b }
/-- `with_custom_points`: src/scatter_search.rs 232-235. -/
def withCustom (s : Scatter n) (pts : List (Pt n)) : Scatter n := { s with custom := some pts }

/-- `is_feasible`: src/scatter_search.rs 909-924. -/
def isFeasible (cs : List (Pt n → F64)) (p : Pt n) : Bool :=
  cs.all fun c => !(F64.lt (c p) F64.zero)

/-- The `k` next seeds of the shared generator: src/scatter_search.rs 558-561, 652-655. -/
def seeds (rt : Rt n) (s : Scatter n) (k : Nat) : List Nat :=
  (List.range k).map fun i => rt.draw s.params.seed (s.rngPos + i)

/-- One stratified sample: src/scatter_search.rs 567-572. -/
def sample (rt : Rt n) (p : Problem n) (seed : Nat) : Option (Pt n) :=
  seqPt fun i => rt.uniformIncl seed i.val (p.lower i) (p.upper i)

/-- `generate_stratified_samples`: src/scatter_search.rs 551-598 (order preserved by the parallel
`collect`). -/
def samples (rt : Rt n) (s : Scatter n) (k : Nat) : Option (Scatter n × List (Pt n)) :=
  (optAll ((s.seeds rt k).map (sample rt s.problem))).map fun l =>
    ({ s with rngPos := s.rngPos + k }, l)

/-- `min_distance`, sequential branch: src/scatter_search.rs 609-622. -/
def minDistSeq (p : Pt n) : F64 → List (Pt n) → F64
  | acc, [] => acc
  | acc, q :: l =>
    let d := dist2 p q
    if F64.lt d acc then
      if F64.lt d (F64.lit 1 (10 ^ 14)) then F64.zero else minDistSeq p d l
    else minDistSeq p acc l

/-- `min_distance`, parallel branch: src/scatter_search.rs 604-608. -/
def minDistPar (sp : Split) (p : Pt n) (l : List (Pt n)) : F64 :=
  sp.reduce (fun l => l.foldl F64.min F64.inf) F64.min (l.map (dist2 p))

/-- `min_distance`: src/scatter_search.rs 601-640. -/
def minDistance (par : Bool) (sp : Split) (p : Pt n) (l : List (Pt n)) : F64 :=
  if par then minDistPar sp p l else minDistSeq p F64.inf l

/-- Index of the largest cached distance: src/scatter_search.rs 482-503. -/
def argmax (par : Bool) (sp : Split) (ds : List F64) : Option Nat :=
  let items := ds.zipIdx
  let r := if par then sp.reduce (reduceSeq (maxOp Prod.fst)) (optOp (maxOp Prod.fst)) items
    else reduceSeq (maxOp Prod.fst) items
  r.map Prod.snd

/-- Retry loop for feasible candidates: src/scatter_search.rs 442-451; `left` is `10 - attempts`. -/
def retry (rt : Rt n) : Nat → Scatter n → List (Pt n) → Option (Scatter n × List (Pt n) × Nat)
  | 0, s, cand => some (s, cand, 10)
  | left + 1, s, cand =>
    if cand.length < s.params.populationSize then
      match s.samples rt (s.params.populationSize * 2) with
      | none => none
      | some (s', batch) =>
        retry rt left s' (cand ++ batch.filter (isFeasible s.problem.constraints))
    else some (s, cand, 10 - (left + 1))

/-- Main loop of diversification: src/scatter_search.rs 481-545.  The fuel is the number of
iterations `population_size - ref_set.len()` of the `while` loop; `round` counts them. -/
def divLoop (par : Bool) (sched : Sched) :
    (fuel round : Nat) → (ref cand : List (Pt n)) → (dists : List F64) →
    Except ScatterErr (List (Pt n))
  | 0, _, ref, _, _ => .ok ref
  | fuel + 1, round, ref, cand, dists =>
    match argmax par (sched.maxBy round) dists with
    | none => .error .noCandidates
    | some i =>
      match cand[i]? with
      | none => .error .panic
      | some far =>
        let cand' := swapRemove cand i
        let dists' := swapRemove dists i
        let upd := List.zipWith (fun c d => let e := dist2 c far; if F64.lt e d then e else d)
          cand' dists'
        divLoop par sched fuel (round + 1) (ref ++ [far]) cand' upd

/-- Candidate generation of `diversify_reference_set`: src/scatter_search.rs 436-468. -/
def candidates (rt : Rt n) (s : Scatter n) (refLen : Nat) :
    Except ScatterErr (Scatter n × List (Pt n)) :=
  match s.samples rt s.params.populationSize with
  | none => .error .panic
  | some (s1, cand0) =>
    if s.problem.constraints.isEmpty then .ok (s1, cand0)
    else
      match retry rt 10 s1 (cand0.filter (isFeasible s.problem.constraints)) with
      | none => .error .panic
      | some (s2, cand, attempts) =>
        if cand.isEmpty then .error (.noFeasibleCandidates attempts n)
        else if refLen + cand.length < s.params.populationSize then
          .error (.noFeasibleCandidates attempts n)
        else .ok (s2, cand)

/-- `diversify_reference_set`: src/scatter_search.rs 431-548. -/
def diversify (rt : Rt n) (sched : Sched) (s : Scatter n) (ref : List (Pt n)) :
    Except ScatterErr (Scatter n × List (Pt n)) :=
  match s.candidates rt ref.length with
  | .error e => .error e
  | .ok (s1, cand) =>
    let dists := cand.zipIdx.map fun (c, i) => minDistance s.parallel (sched.minDist i) c ref
    match divLoop s.parallel sched (s.params.populationSize - ref.length) 0 ref cand dists with
    | .error e => .error e
    | .ok ref' => .ok (s1, ref')

/-- Midpoint seed `(lower + upper) / 2.0`: src/scatter_search.rs 331. -/
def midpoint (p : Problem n) : Pt n := fun i => ((p.lower i).add (p.upper i)).div F64.two

/-- Seed points: src/scatter_search.rs 326-345. -/
def seedPoints (p : Problem n) : List (Pt n) :=
  let l := [p.lower, p.upper, midpoint p]
  if p.constraints.isEmpty then l else l.filter (isFeasible p.constraints)

/-- Accepted custom points: src/scatter_search.rs 347-380. -/
def customPoints (s : Scatter n) : List (Pt n) :=
  match s.custom with
  | none => []
  | some l => if s.problem.constraints.isEmpty then l
    else l.filter (isFeasible s.problem.constraints)

/-- Evaluate all points, stopping at the first failure: src/scatter_search.rs 399-403. -/
def evalAll (p : Problem n) : List (Pt n) → Except ScatterErr (List F64)
  | [] => .ok []
  | x :: l =>
    match p.objective x with
    | .error e => .error (.evaluation e)
    | .ok v =>
      match evalAll p l with
      | .error e => .error e
      | .ok vs => .ok (v :: vs)

/-- Evaluation of the initial reference set: src/scatter_search.rs 390-409.  From 20 points on it is
parallel; of several failures the one that completes first is returned. -/
def evalInit (par : Bool) (order : List Nat) (p : Problem n) (l : List (Pt n)) :
    Except ScatterErr (List F64) :=
  if par && 20 ≤ l.length then
    match order.findSome? (fun i => (l[i]?).bind fun x => match p.objective x with
        | .error e => some e
        | .ok _ => none) with
    | some e => .error (.evaluation e)
    | none => evalAll p l
  else evalAll p l

/-- `initialize_reference_set`: src/scatter_search.rs 320-428. -/
def init (rt : Rt n) (sched : Sched) (s : Scatter n) : Except ScatterErr (Scatter n) :=
  match s.diversify rt sched (seedPoints s.problem ++ s.customPoints) with
  | .error e => .error e
  | .ok (s1, ref) =>
    match evalInit s.parallel sched.evals s.problem ref with
    | .error e => .error e
    | .ok objs =>
      let sorted := rt.sort (ref.zip objs)
      .ok { s1 with refSet := sorted.map Prod.fst, refObjs := sorted.map Prod.snd }

/-- `apply_bounds`: src/scatter_search.rs 715-719. -/
def applyBounds (p : Problem n) (x : Pt n) : Option (Pt n) :=
  seqPt fun i => (x i).clamp (p.lower i) (p.upper i)

/-- Linear combination `a * alpha + b * (1.0 - alpha)`: src/scatter_search.rs 696. -/
def lincomb (a b : Pt n) (alpha : F64) : Pt n :=
  fun i => ((a i).mul alpha).add ((b i).mul (F64.one.sub alpha))

/-- The constants 0.25, 0.5, 0.75, 1.25: src/scatter_search.rs 694. -/
def directions : List F64 := [F64.lit 1 4, F64.lit 1 2, F64.lit 3 4, F64.lit 5 4]

/-- Random perturbation of the midpoint: src/scatter_search.rs 702-710; `r` is 0 or 1 (the two
points share one generator). -/
def perturb (rt : Rt n) (p : Problem n) (a b : Pt n) (seed r : Nat) : Option (Pt n) :=
  seqPt fun i =>
    (rt.uniformExcl seed (r * n + i.val) (F64.lit 1 10).fneg (F64.lit 1 10)).map fun u =>
      (((a i).add (b i)).div F64.two).add (u.mul ((p.upper i).sub (p.lower i)))

/-- `combine_points`: src/scatter_search.rs 690-713. -/
def combine (rt : Rt n) (p : Problem n) (a b : Pt n) (seed : Nat) : Option (List (Pt n)) :=
  optAll (directions.map (fun alpha => applyBounds p (lincomb a b alpha)) ++
    [0, 1].map fun r => (perturb rt p a b seed r).bind (applyBounds p))

/-- Index pairs `i < j < k`: src/scatter_search.rs 648-649. -/
def pairs (k : Nat) : List (Nat × Nat) :=
  (List.range k).flatMap fun i => ((List.range k).filter (i < ·)).map fun j => (i, j)

/-- `k` used for combinations: src/scatter_search.rs 644-645. -/
def kOf (len : Nat) : Nat := Nat.min (Nat.max (isqrt len) 2) len

/-- `generate_trial_points`: src/scatter_search.rs 642-687. -/
def trialPoints (rt : Rt n) (s : Scatter n) : Option (Scatter n × List (Pt n)) :=
  let idx := pairs (kOf s.refSet.length)
  let sds := s.seeds rt idx.length
  let parts := (idx.zip sds).map fun ((i, j), sd) =>
    match s.refSet[i]?, s.refSet[j]? with
    | some a, some b => combine rt s.problem a b sd
    | _, _ => none
  (optAll parts).map fun l => ({ s with rngPos := s.rngPos + idx.length }, l.flatten)

/-- Squared distances sampled for the diversity threshold: src/scatter_search.rs 737-762. -/
def sampledDists (ref : List (Pt n)) : List F64 :=
  (List.range (kOf ref.length)).filterMap fun i =>
    match ref[i]?, ref[(i + 1) % ref.length]? with
    | some a, some b => some (dist2 a b)
    | _, _ => none

/-- Sum of a list, sequentially or along a split tree (`sum::<f64>()`; the distances are never
`-0.0`, so the sign of the neutral element is irrelevant). -/
def sumDists (par : Bool) (sp : Split) (l : List F64) : F64 :=
  if par then sp.reduce (fun l => l.foldl F64.add F64.zero) F64.add l
  else l.foldl F64.add F64.zero

/-- `min_dist_threshold`: src/scatter_search.rs 732-773. -/
def distThreshold (par : Bool) (sp : Split) (ref : List (Pt n)) : F64 :=
  if ref.length < 2 then F64.zero
  else
    ((sumDists par sp (sampledDists ref)).div (F64.ofNat (kOf ref.length))).mul (F64.lit 1 10)

/-- Does `evaluate_trial` reach the objective evaluation?  src/scatter_search.rs 783-794. -/
def trialEvaluated (s : Scatter n) (thr : F64) (p : Pt n) : Bool :=
  (s.problem.constraints.isEmpty || isFeasible s.problem.constraints p) &&
    (s.refSet.take 5).all fun r => F64.gt (dist2 p r) thr

/-- `evaluate_trial`: src/scatter_search.rs 782-798. -/
def evalTrial (s : Scatter n) (thr worst : F64) (p : Pt n) : Option (Pt n × F64) :=
  if trialEvaluated s thr p then
    match s.problem.objective p with
    | .error _ => none
    | .ok v => if F64.lt v worst then some (p, v) else none
  else none

/-- Trial points that pass the three filters: src/scatter_search.rs 755-802. -/
def acceptedTrials (sched : Sched) (s : Scatter n) (trials : List (Pt n)) : Scored n :=
  let worst := (s.refObjs.getLast?).getD F64.inf
  let thr := distThreshold s.parallel sched.sum s.refSet
  trials.filterMap (evalTrial s thr worst)

/-- Selection of the best `population_size` points: src/scatter_search.rs 828-844; `none` is a
panic (index out of range, `k - 1` underflow). -/
def keepBest (rt : Rt n) (pop : Nat) (all : Scored n) : Option (Scored n) :=
  let k := kOf pop
  if k = 0 ∨ all.length < k then none
  else
    let a1 := rt.selectNth (k - 1) all
    let a2 := rt.sort (a1.take k) ++ a1.drop k
    if all.length < pop then none
    else some ((rt.selectNth (pop - 1) a2).take pop)

/-- `update_reference_set`: src/scatter_search.rs 721-850. -/
def update (rt : Rt n) (sched : Sched) (s : Scatter n) (trials : List (Pt n)) : Option (Scatter n) :=
  if trials.isEmpty then some s
  else
    let acc := acceptedTrials sched s trials
    if acc.isEmpty then some s
    else
      (keepBest rt s.params.populationSize (s.refSet.zip s.refObjs ++ acc)).map fun l =>
        { s with refSet := l.map Prod.fst, refObjs := l.map Prod.snd }

/-- `best_solution`: src/scatter_search.rs 852-880. -/
def best (sched : Sched) (s : Scatter n) : Except ScatterErr (Pt n) :=
  let items := s.refObjs.zipIdx
  let r := if s.parallel then sched.minBy.reduce (reduceSeq (minOp Prod.fst)) (optOp (minOp Prod.fst)) items
    else reduceSeq (minOp Prod.fst) items
  match r with
  | none => .error .noCandidates
  | some (_, i) =>
    match s.refSet[i]? with
    | some p => .ok p
    | none => .error .panic

/-- Result of `ScatterSearch::run` with the sizes reported to the observer and (ghost) the number of
objective evaluations performed: src/scatter_search.rs 240-318. -/
structure Result (n : Nat) where
  ref : Scored n
  best : Pt n
  initLen : Nat
  trialLen : Nat
  finalLen : Nat
  evals : Nat

/-- `ScatterSearch::run`: src/scatter_search.rs 240-318.  Observer updates are applied by the caller
from the recorded sizes. -/
def run (rt : Rt n) (sched : Sched) (s : Scatter n) : Except ScatterErr (Result n) :=
  match s.init rt sched with
  | .error e => .error e
  | .ok s1 =>
    match s1.trialPoints rt with
    | none => .error .panic
    | some (s2, trials) =>
      match s2.update rt sched trials with
      | none => .error .panic
      | some s3 =>
        match s3.best sched with
        | .error e => .error e
        | .ok b =>
          let thr := distThreshold s2.parallel sched.sum s2.refSet
          .ok ⟨s3.refSet.zip s3.refObjs, b, s1.refSet.length, trials.length, s3.refSet.length,
            s1.refSet.length + (trials.filter (trialEvaluated s2 thr)).length⟩

/-- `store_trial`: src/scatter_search.rs 882-884. -/
def storeTrial (s : Scatter n) (p : Pt n) : Scatter n := { s with refSet := s.refSet ++ [p] }

end Scatter
end GS
