/- External runtime of the library: random numbers, unstable sorting, shuffling, rayon splitting.
These are parameters of the model together with the documented contracts. -/
import Verif.Model.Types
import Verif.F64.Sqrt

namespace GS

/-- A list of reference points with their objective values: `reference_set` with
`reference_set_objectives`, src/scatter_search.rs 140-155, 408-420. -/
abbrev Scored (n : Nat) := List (Pt n × F64)

/-- External functions of `std`/`rand` used by the library: used at src/scatter_search.rs 182, 414,
558-594, 652-706, 835-841 and at src/oqnlp.rs 924 (dependency `rand`). -/
structure Rt (n : Nat) where
  /-- the `i`-th `rng.random::<u64>()` of `StdRng::seed_from_u64(seed)` -/
  draw : (seed i : Nat) → Nat
  /-- the `i`-th `rng.random_range(lo..=hi)` of `StdRng::seed_from_u64(seed)`; `none` is its panic -/
  uniformIncl : (seed i : Nat) → (lo hi : F64) → Option F64
  /-- the `i`-th `rng.random_range(lo..hi)` of `StdRng::seed_from_u64(seed)`; `none` is its panic -/
  uniformExcl : (seed i : Nat) → (lo hi : F64) → Option F64
  /-- `sort_unstable_by(|a, b| a.1.total_cmp(&b.1))` -/
  sort : Scored n → Scored n
  /-- `select_nth_unstable_by(k, |a, b| a.1.total_cmp(&b.1))` for `k` in range -/
  selectNth : Nat → Scored n → Scored n
  /-- `slice.shuffle(&mut StdRng::seed_from_u64(seed))` -/
  shuffle : (seed : Nat) → List (Pt n) → List (Pt n)

/-- Documented contracts of the external functions: used at src/scatter_search.rs 182, 414, 558-594,
652-706, 835-841 and at src/oqnlp.rs 924 (dependency `rand`). -/
structure Rt.Valid {n : Nat} (rt : Rt n) : Prop where
  uniformIncl_mem : ∀ s i lo hi x, rt.uniformIncl s i lo hi = some x →
    F64.le lo x = true ∧ F64.le x hi = true
  uniformIncl_total : ∀ s i lo hi, F64.le lo hi = true → (hi.sub lo).isFinite = true →
    (rt.uniformIncl s i lo hi).isSome = true
  uniformExcl_mem : ∀ s i lo hi x, rt.uniformExcl s i lo hi = some x →
    F64.le lo x = true ∧ F64.lt x hi = true
  uniformExcl_total : ∀ s i lo hi, F64.lt lo hi = true → (hi.sub lo).isFinite = true →
    (rt.uniformExcl s i lo hi).isSome = true
  sort_perm : ∀ l, (rt.sort l).Perm l
  sort_sorted : ∀ l, (rt.sort l).Pairwise fun a b => F64.tle a.2 b.2 = true
  selectNth_perm : ∀ k l, k < l.length → (rt.selectNth k l).Perm l
  selectNth_left : ∀ k l, k < l.length → ∀ i x y, i ≤ k →
    (rt.selectNth k l)[i]? = some x → (rt.selectNth k l)[k]? = some y → F64.tle x.2 y.2 = true
  selectNth_right : ∀ k l, k < l.length → ∀ i x y, k ≤ i →
    (rt.selectNth k l)[i]? = some x → (rt.selectNth k l)[k]? = some y → F64.tle y.2 x.2 = true
  shuffle_perm : ∀ s l, (rt.shuffle s l).Perm l

/-- How rayon splits a parallel iterator: a binary tree; `node k l r` splits after `k` items: the
`par_iter` calls of src/scatter_search.rs 359, 395, 485, 606, 745, 856 (dependency `rayon`). -/
inductive Split where
  | leaf
  | node (k : Nat) (l r : Split)

/-- Result of a rayon reduction along a split tree: every leaf is folded sequentially, results are joined
from left to right: the `par_iter` calls of src/scatter_search.rs 359, 395, 485, 606, 745, 856 (dependency
`rayon`). -/
def Split.reduce {α β : Type} (leafF : List α → β) (join : β → β → β) : Split → List α → β
  | .leaf, xs => leafF xs
  | .node k l r, xs => join (l.reduce leafF join (xs.take k)) (r.reduce leafF join (xs.drop k))

/-- Choices of the scheduler for the parallel parts of one scatter search: split trees of reductions, and
the order in which tasks that may fail complete: the `par_iter` calls of src/scatter_search.rs 359, 395,
485, 606, 745, 856 (dependency `rayon`). -/
structure Sched where
  /-- `min_distance` of the `i`-th candidate -/
  minDist : Nat → Split
  /-- `max_by` in the `i`-th round of diversification -/
  maxBy : Nat → Split
  /-- sum of sampled distances in `update_reference_set` -/
  sum : Split
  /-- `min_by` in `best_solution` -/
  minBy : Split
  /-- order in which the evaluations of the initial reference set complete -/
  evals : List Nat

/-- Lift a binary choice to optional values (`reduce_with`): src/scatter_search.rs 606-625. -/
def optOp {α : Type} (op : α → α → α) : Option α → Option α → Option α
  | some a, some b => some (op a b)
  | some a, none => some a
  | none, b => b

/-- Sequential `reduce`/`max_by`/`min_by` over an iterator: src/scatter_search.rs 606-625. -/
def reduceSeq {α : Type} (op : α → α → α) (l : List α) : Option α :=
  l.foldl (fun acc x => optOp op acc (some x)) none

/-- `Iterator::max_by`/`ParallelIterator::max_by` with `total_cmp`: keeps the right argument unless the
left is greater: src/scatter_search.rs 487-501. -/
def maxOp {α : Type} (f : α → F64) (a b : α) : α := if F64.tlt (f b) (f a) then a else b
/-- `Iterator::min_by`/`ParallelIterator::min_by` with `total_cmp`: keeps the left argument unless it is
greater: src/scatter_search.rs 858-875. -/
def minOp {α : Type} (f : α → F64) (a b : α) : α := if F64.tlt (f b) (f a) then b else a

/-- `swap_remove(i)` of a vector (`i` in range): the last element takes the place of the removed one:
src/scatter_search.rs 505-506. -/
def swapRemove {α : Type} (l : List α) (i : Nat) : List α :=
  match l.getLast? with
  | some x => (l.set i x).dropLast
  | none => l

/-- Collect a coordinate-wise optional point: src/scatter_search.rs 568-594. -/
def seqPt {n : Nat} (f : Fin n → Option F64) : Option (Pt n) :=
  if h : ∀ i, (f i).isSome = true then some fun i => (f i).get (h i) else none

/-- `collect::<Option<Vec<_>>>()`: no separate code in /repo; panics inside the iterators of
src/scatter_search.rs 551-712. -/
def optAll {α : Type} : List (Option α) → Option (List α)
  | [] => some []
  | none :: _ => none
  | some a :: l => (optAll l).map (a :: ·)

/-- `(n as f64).sqrt() as usize`: src/scatter_search.rs 644, 739, 832.  Both cases are the same expression
(`isqrt_def`); the case distinction only keeps the kernel from evaluating it for an unknown `n`. -/
def isqrt (n : Nat) : Nat :=
  match n with
  | 0 => (F64.sqrt (F64.ofNat 0)).toUsize
  | m + 1 => (F64.sqrt (F64.ofNat (m + 1))).toUsize

theorem isqrt_def (n : Nat) : isqrt n = (F64.sqrt (F64.ofNat n)).toUsize := by
  unfold isqrt
  split <;> rfl

end GS
