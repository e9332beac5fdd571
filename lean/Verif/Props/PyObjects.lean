/- C129: what a Python program does with its results stays where it was done. -/
import Verif.Model.PyObjects
import Verif.Props.Python

namespace GS.Props
open GS GS.Py

/-- The edits of one solution, applied to a value. -/
def ownEdit (o : Nat) (s : PySol) : HeapOp → PySol
  | .setPoint o' v => if o' = o then { s with point := v } else s
  | .setObjective o' v => if o' = o then { s with objective := v } else s
  | _ => s

/-- The edits of one list. -/
def ownListEdit (j : Nat) (l : List F64) : HeapOp → List F64
  | .editList j' i v => if j' = j then l.set i v else l
  | _ => l

theorem step_sets {h : Heap} {k : Nat} {s : List PySol} (hk : h.sets[k]? = some s) (op : HeapOp) :
    (h.step op).sets[k]? = some s := by
  cases op <;> dsimp only [Heap.step] <;> (repeat' split) <;> first
    | exact hk
    | exact (List.getElem?_append_left (List.getElem?_eq_some_iff.1 hk).1).trans hk

theorem step_objects {h : Heap} {o : Nat} {s : PySol} (ho : h.objects[o]? = some s) (op : HeapOp) :
    (h.step op).objects[o]? = some (ownEdit o s op) := by
  cases op <;> dsimp only [Heap.step, ownEdit] <;> (repeat' split) <;> first
    | exact ho
    | exact (List.getElem?_append_left (List.getElem?_eq_some_iff.1 ho).1).trans ho
    | (rw [List.getElem?_modify, ho]; simp [*])

theorem step_lists {h : Heap} {j : Nat} {l : List F64} (hj : h.lists[j]? = some l) (op : HeapOp) :
    (h.step op).lists[j]? = some (ownListEdit j l op) := by
  cases op <;> dsimp only [Heap.step, ownListEdit] <;> (repeat' split) <;> first
    | exact hj
    | exact (List.getElem?_append_left (List.getElem?_eq_some_iff.1 hj).1).trans hj
    | (rw [List.getElem?_modify, hj]; simp [*])

/-- C129: a solution set never changes, whatever a program does with the solutions and points it got from it. -/
theorem C129_sets (h : Heap) (ops : List HeapOp) (k : Nat) (s : List PySol) (hk : h.sets[k]? = some s) :
    (h.exec ops).sets[k]? = some s := by
  unfold Heap.exec
  induction ops generalizing h with
  | nil => exact hk
  | cons op ops ih => exact ih _ (step_sets hk op)

/-- C129: a solution has, in each attribute, the value last assigned to that attribute of that very object, and else
the one it began with; nothing done to other objects, sets or lists is seen in it. -/
theorem C129_solutions (h : Heap) (ops : List HeapOp) (o : Nat) (s : PySol) (ho : h.objects[o]? = some s) :
    ∃ t, (h.exec ops).objects[o]? = some t ∧
      t.x = (ops.reverse.findSome? fun op => match op with
        | .setPoint o' v => if o' = o then some v else none
        | _ => none).getD s.point ∧
      t.fun' = (ops.reverse.findSome? fun op => match op with
        | .setObjective o' v => if o' = o then some v else none
        | _ => none).getD s.objective := by
  have key : ∀ (h : Heap) s, h.objects[o]? = some s →
      (h.exec ops).objects[o]? = some (ops.foldl (ownEdit o) s) := by
    unfold Heap.exec
    induction ops with
    | nil => exact fun _ _ ho => ho
    | cons op ops ih => exact fun h s ho => ih _ _ (step_objects ho op)
  refine ⟨_, key h s ho, ?_⟩
  unfold PySol.x PySol.fun'
  clear key ho h
  induction ops using List.reverseRecOn with
  | nil => exact ⟨rfl, rfl⟩
  | append_singleton ops op ih =>
    rw [List.foldl_append, List.reverse_append]
    simp only [List.foldl_cons, List.foldl_nil, List.reverse_cons, List.reverse_nil, List.nil_append,
      List.singleton_append, List.findSome?_cons]
    cases op <;> dsimp only [ownEdit] <;> first
      | exact ih
      | (split
         · exact ⟨by first | rfl | exact ih.1, by first | rfl | exact ih.2⟩
         · exact ih)

/-- C129: a list got as the point of a solution is the program's own: it changes only by edits of that very list, and
these change no solution and no set. -/
theorem C129_lists (h : Heap) (ops : List HeapOp) (j : Nat) (l : List F64) (hj : h.lists[j]? = some l) :
    (h.exec ops).lists[j]? = some (ops.foldl (ownListEdit j) l) ∧
      ∀ i v, (h.step (.editList j i v)).objects = h.objects ∧ (h.step (.editList j i v)).sets = h.sets := by
  refine ⟨?_, fun _ _ => ⟨rfl, rfl⟩⟩
  unfold Heap.exec
  induction ops generalizing h l with
  | nil => exact hj
  | cons op ops ih => exact ih _ _ (step_lists hj op)

/-- C129: what is read: `result[i]` is a new solution equal to the `i`-th of the set, `best_solution()` one equal to
the best, iteration gives new solutions equal to all of them in order, and the point of a solution is a new list of
its coordinates; a set made from solutions holds their values. -/
theorem C129_reads (h : Heap) :
    (∀ k s (i : Nat) x, h.sets[k]? = some s → s[i]? = some x →
      (h.step (.item k i)).objects = h.objects ++ [x]) ∧
    (∀ k s x, h.sets[k]? = some s → best s = some x → (h.step (.best k)).objects = h.objects ++ [x]) ∧
    (∀ k s, h.sets[k]? = some s → (h.step (.solutions k)).objects = h.objects ++ s) ∧
    (∀ p v, (h.step (.make p v)).objects = h.objects ++ [⟨p, v⟩]) ∧
    (∀ o s, h.objects[o]? = some s → (h.step (.point o)).lists = h.lists ++ [s.point]) ∧
    (∀ os s, os.map (fun o => h.objects[o]?) = s.map some → (h.step (.collect os)).sets = h.sets ++ [s]) := by
  refine ⟨fun k s i x hk hx => ?_, fun k s x hk hx => ?_, fun k s hk => ?_, fun _ _ => rfl, fun o s ho => ?_,
    fun os s hs => ?_⟩
  · dsimp only [Heap.step]
    rw [hk]
    dsimp only
    have : getItem s (i : Int) = .ok x := by
      unfold getItem
      rw [if_neg (by omega)]
      simp [hx]
    rw [this]
  · dsimp only [Heap.step]
    rw [hk, Option.bind_some, hx]
  · dsimp only [Heap.step]
    rw [hk]
  · dsimp only [Heap.step]
    rw [ho]
    rfl
  · dsimp only [Heap.step]
    have : (os.mapM fun o => h.objects[o]?) = some s := by
      induction os generalizing s with
      | nil =>
        cases s with
        | nil => rfl
        | cons x s => cases hs
      | cons o os ih =>
        cases s with
        | nil => cases hs
        | cons x s =>
          simp only [List.map_cons, List.cons.injEq] at hs
          rw [List.mapM_cons, hs.1, ih s hs.2]
          rfl
    rw [this]

/-- `a = result[0]; a.objective = 7; b = result[0]`: the edit is seen in `a`, not in `b` and not in the set. -/
example (p : List F64) (u v : F64) :
    (Heap.exec ⟨[[⟨p, u⟩]], [], []⟩ [.item 0 0, .setObjective 0 v, .item 0 0]) =
      ⟨[[⟨p, u⟩]], [⟨p, v⟩, ⟨p, u⟩], []⟩ := rfl

/-- `l = a.point; l[0] = w`: the solution keeps its point. -/
example (x u w : F64) : (Heap.exec ⟨[], [⟨[x], u⟩], []⟩ [.point 0, .editList 0 0 w]) = ⟨[], [⟨[x], u⟩], [[w]]⟩ := rfl

end GS.Props
