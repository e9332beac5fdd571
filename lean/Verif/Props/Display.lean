/- Properties of the text reports (C68). -/
import Verif.Model.Display
import Verif.F64.Round
import Verif.Props.SolutionSet

namespace GS.Props
open GS GS.Display
variable {n : Nat}

/-! ### Specification -/

/-- A constraint line consists of a prefix, a mark, a number and a remark. -/
structure Parts where
  before : List Char
  mark : Char
  number : List Char
  remark : List Char

def Parts.text (p : Parts) : List Char := p.before ++ p.mark :: ' ' :: (p.number ++ p.remark)

/-- The remark of a constraint that holds. -/
def satisfiedText : List Char := [' ', '(', 's', 'a', 't', 'i', 's', 'f', 'i', 'e', 'd', ')']

/-- Number of lines of the header: title, total, best value (if there is a solution), rule. -/
def headerLines (set : List (Sol n)) : Nat := if set = [] then 3 else 4

theorem header_length (fmt : Fmt n) (set : List (Sol n)) : (header fmt set).length = headerLines set := by
  unfold header headerLines
  cases set with
  | nil => rfl
  | cons a l =>
    cases h : bestSolution (a :: l) with
    | none => exact absurd ((C04_none_iff _).mp h) (by simp)
    | some b => simp

theorem block_length (fmt : Fmt n) (ds : Option (List (List Char))) (cs : List (Pt n → F64)) (hc : cs ≠ [])
    (total i : Nat) (s : Sol n) :
    (block fmt ds cs total i s).length = cs.length + 5 + if i < total - 1 then 1 else 0 := by
  unfold block
  have : cs.isEmpty = false := by cases cs <;> simp_all
  rw [this]
  by_cases h : i < total - 1
  · simp [h]
  · simp [h]

/-- Position in a list of blocks of which all before the wanted one have the same length. -/
theorem flatten_blocks {α β : Type} (f : Nat → α → List β) (k : Nat) (l : List α) (off : Nat) (i : Nat) (a : α)
    (hi : l[i]? = some a) (hk : ∀ i' a', i' < i → l[i']? = some a' → (f (off + i') a').length = k) (j : Nat)
    (hj : j < (f (off + i) a).length) :
    (l.mapIdx fun i s => f (off + i) s).flatten[i * k + j]? = (f (off + i) a)[j]? := by
  induction l generalizing off i with
  | nil => cases hi
  | cons x l ih =>
    rw [List.mapIdx_cons, List.flatten_cons]
    cases i with
    | zero =>
      simp only [List.getElem?_cons_zero, Option.some.injEq] at hi
      subst hi
      rw [Nat.zero_mul, Nat.zero_add, List.getElem?_append_left hj]
    | succ i =>
      have h0 := hk 0 x (by omega) rfl
      rw [List.getElem?_append_right (by rw [h0, Nat.succ_mul]; omega), h0]
      have := ih (off + 1) i (by simpa using hi)
        (fun i' a' hi' ha' => by
          have := hk (i' + 1) a' (by omega) (by simpa using ha')
          rw [show off + 1 + i' = off + (i' + 1) by omega]
          exact this)
        (by rw [show off + 1 + i = off + (i + 1) by omega]; exact hj)
      rw [show off + 1 + i = off + (i + 1) by omega] at this
      rw [← this]
      congr 1
      · congr 1
        apply List.ext_getElem?
        intro m
        simp only [List.getElem?_mapIdx]
        rw [show off + 1 + m = off + (m + 1) by omega]
      · rw [Nat.succ_mul]; omega

/-- C68: the line for constraint `j` of solution `i` is at a fixed place in the report, one line for each pair:
after the header, solution `i` takes `m + 6` lines (the last one has no separator), of which lines
`5, …, 4 + m` are the constraints in order. -/
theorem C68_line_of_pair (fmt : Fmt n) (p : Problem n) (ds : Option (List (List Char))) (set : List (Sol n))
    (i j : Nat) (s : Sol n) (g : Pt n → F64) (hs : set[i]? = some s) (hg : p.constraints[j]? = some g) :
    (displayWithConstraints fmt p ds set)[headerLines set + (i * (p.constraints.length + 6) + (5 + j))]? =
      some (constraintLine fmt ds j (g s.point)) := by
  have hi : i < set.length := (List.getElem?_eq_some_iff.mp hs).1
  have hj : j < p.constraints.length := (List.getElem?_eq_some_iff.mp hg).1
  have hc : p.constraints ≠ [] := by rintro h; rw [h] at hj; simp at hj
  unfold displayWithConstraints
  rw [← header_length fmt set, List.getElem?_append_right (by omega), Nat.add_sub_cancel_left]
  have hb : j + 5 < (block fmt ds p.constraints set.length i s).length := by
    rw [block_length fmt ds _ hc]
    split <;> omega
  have := flatten_blocks (fun i s => block fmt ds p.constraints set.length i s) (p.constraints.length + 6) set 0
    i s hs (fun i' a' hi' _ => by
      rw [block_length fmt ds _ hc, if_pos (by omega)]) (j + 5) (by simpa using hb)
  simp only [Nat.zero_add] at this
  rw [show 5 + j = j + 5 by omega, this]
  unfold block
  have he : p.constraints.isEmpty = false := by cases h : p.constraints <;> simp_all
  rw [he]
  simp only [Bool.false_eq_true, if_false]
  rw [List.append_assoc, List.getElem?_append_right (by simp)]
  rw [List.getElem?_append_left (by simp; omega)]
  simp [List.getElem?_mapIdx, hg]

/-- C68: there are no other lines: header, and `m + 5` lines per solution with one separator between two. -/
theorem C68_line_count (fmt : Fmt n) (p : Problem n) (ds : Option (List (List Char))) (set : List (Sol n))
    (hc : p.constraints ≠ []) :
    (displayWithConstraints fmt p ds set).length =
      headerLines set + set.length * (p.constraints.length + 5) + (set.length - 1) := by
  unfold displayWithConstraints
  rw [List.length_append, header_length, List.length_flatten]
  have key : ∀ (l : List (Sol n)) (off : Nat), off + l.length = set.length →
      ((l.mapIdx fun i s => block fmt ds p.constraints set.length (off + i) s).map List.length).sum =
        l.length * (p.constraints.length + 5) + (l.length - 1) := by
    intro l
    induction l with
    | nil => intro off _; simp
    | cons a l ih =>
      intro off ho
      rw [List.mapIdx_cons, List.map_cons, List.sum_cons, block_length fmt ds _ hc]
      have := ih (off + 1) (by simp at ho; omega)
      rw [show (fun i s => block fmt ds p.constraints set.length (off + (i + 1)) s) =
        fun i s => block fmt ds p.constraints set.length (off + 1 + i) s by
          funext i s; rw [show off + (i + 1) = off + 1 + i by omega]]
      rw [this, List.length_cons, Nat.succ_mul]
      simp only [List.length_cons] at ho
      cases l with
      | nil =>
        simp only [List.length_nil] at ho ⊢
        rw [if_neg (by omega)]
        omega
      | cons b l =>
        simp only [List.length_cons] at ho ⊢
        rw [if_pos (by omega)]
        omega
  have := key set 0 (by omega)
  simp only [Nat.zero_add] at this
  rw [this]
  omega

/-- C68 (numbers): in the line of a constraint whose value is not NaN, the mark is a check exactly when the
remark says satisfied, and the remark says otherwise exactly when the value is negative.  Missing: NaN values,
for which the line contradicts itself (`C68_violated`). -/
theorem C68_line_consistent_partial (fmt : Fmt n) (ds : Option (List (List Char))) (j : Nat) (v : F64)
    (hv : v.isNaN = false) :
    ∃ q : Parts, constraintLine fmt ds j v = q.text ∧ q.number = fmt.sci6 v ∧
      (q.mark = '✓' ∨ q.mark = '✗') ∧ (q.mark = '✓' ↔ q.remark = satisfiedText) ∧
      (q.remark ≠ satisfiedText ↔ F64.lt v F64.zero = true) ∧
      (F64.lt v F64.zero = true → q.remark = [' ', '(', 'v', 'i', 'o', 'l', 'a', 't', 'e', 'd', ' ', 'b', 'y', ' '] ++ fmt.fix6 v.fneg ++ [')']) := by
  refine ⟨⟨[' ', ' ', ' ', ' ', 'C', 'o', 'n', 's', 't', 'r', 'a', 'i', 'n', 't', ' '] ++ fmt.nat (j + 1) ++ description ds j ++ [':', ' '], mark v, fmt.sci6 v,
    violation fmt v⟩, ?_, rfl, ?_, ?_, ?_, ?_⟩
  · simp [constraintLine, Parts.text]
  · show mark v = '✓' ∨ mark v = '✗'
    unfold mark
    split <;> simp
  all_goals
    have hviol : F64.lt v F64.zero = true → violation fmt v ≠ satisfiedText := by
      intro h
      unfold violation
      rw [if_pos h]
      intro he
      have := congrArg (fun l : List Char => l[2]?) he
      simp [satisfiedText] at this
    have hsat : F64.lt v F64.zero = false → violation fmt v = satisfiedText := by
      intro h
      unfold violation
      rw [h]
      rfl
    have hge : F64.ge v F64.zero = true ↔ F64.lt v F64.zero = false := by
      unfold F64.ge
      rw [Bool.eq_false_iff, Ne, F64.lt_iff, F64.le_iff]
      constructor
      · rintro ⟨_, _, h⟩ ⟨_, _, h'⟩; omega
      · intro h
        refine ⟨by decide, hv, ?_⟩
        by_cases hk : v.key < F64.zero.key
        · exact absurd ⟨hv, by decide, hk⟩ h
        · omega
    cases hl : F64.lt v F64.zero
  · have h1 : mark v = '✓' := by unfold mark; rw [if_pos (hge.mpr hl)]
    simp [h1, hsat hl]
  · have h1 : mark v = '✗' := by
      unfold mark
      rw [if_neg (by rw [hge, hl]; simp)]
    simp [h1, hviol hl]
  · simp [hsat hl]
  · simp [hviol hl]
  · simp
  · intro _
    show violation fmt v = _
    unfold violation
    rw [if_pos hl]

/-- C68 is violated by NaN constraint values: the line has a cross and says satisfied. -/
theorem C68_violated (fmt : Fmt n) (ds : Option (List (List Char))) (j : Nat) :
    ∃ q : Parts, constraintLine fmt ds j F64.nan = q.text ∧ q.mark = '✗' ∧ q.remark = satisfiedText := by
  refine ⟨⟨[' ', ' ', ' ', ' ', 'C', 'o', 'n', 's', 't', 'r', 'a', 'i', 'n', 't', ' '] ++ fmt.nat (j + 1) ++ description ds j ++ [':', ' '], '✗', fmt.sci6 F64.nan,
    satisfiedText⟩, ?_, rfl, rfl⟩
  have h1 : mark F64.nan = '✗' := by decide +kernel
  have h2 : violation fmt F64.nan = satisfiedText := by
    unfold violation
    rw [show F64.lt F64.nan F64.zero = false by decide +kernel]
    rfl
  simp [constraintLine, Parts.text, h1, h2]

/-- Two solutions and one constraint: the second solution's constraint is line `4 + 7 + 5` of 17. -/
example (fmt : Fmt 1) (p : Problem 1) (g : Pt 1 → F64) (a b : Sol 1) (hp : p.constraints = [g]) :
    (displayWithConstraints fmt p none [a, b])[16]? = some (constraintLine fmt none 0 (g b.point)) ∧
      (displayWithConstraints fmt p none [a, b]).length = 17 := by
  constructor
  · have := C68_line_of_pair fmt p none [a, b] 1 0 b g rfl (by rw [hp]; rfl)
    rw [hp] at this
    exact this
  · rw [C68_line_count fmt p none [a, b] (by rw [hp]; simp), hp]
    rfl

/-- C68: without constraints the report of a problem is the plain one. -/
theorem C68_without_constraints (fmt : Fmt n) (p : Problem n) (set : List (Sol n)) (h : p.constraints = []) :
    displayWithConstraints fmt p none set = display fmt set ∧ displayWithProblem fmt p set = display fmt set := by
  unfold displayWithProblem displayWithConstraints display
  rw [h]
  exact ⟨rfl, rfl⟩

/-- C68: the report of a problem is the one with its constraints, without descriptions. -/
theorem C68_problem (fmt : Fmt n) (p : Problem n) (set : List (Sol n)) :
    displayWithProblem fmt p set = displayWithConstraints fmt p none set := by
  cases h : p.constraints with
  | nil =>
    obtain ⟨h1, h2⟩ := C68_without_constraints fmt p set h
    rw [h1, h2]
  | cons g gs =>
    unfold displayWithProblem
    rw [h]
    rfl

/-- C68 (header): the second line gives the number of solutions, and the third one, if there are solutions, the
objective of the first member that no other member beats. -/
theorem C68_header (fmt : Fmt n) (p : Problem n) (ds : Option (List (List Char))) (set : List (Sol n)) :
    ∀ report ∈ [displayWithConstraints fmt p ds set, display fmt set, displayWithProblem fmt p set],
      report[1]? = some (['T', 'o', 't', 'a', 'l', ' ', 's', 'o', 'l', 'u', 't', 'i', 'o', 'n', 's', ':', ' '] ++ fmt.nat set.length) ∧
      (set ≠ [] → ∃ (i : Nat) (b : Sol n), set[i]? = some b ∧
        (∀ (j : Nat) s, set[j]? = some s → F64.tlt s.objective b.objective = false) ∧
        (∀ (j : Nat) s, j < i → set[j]? = some s → F64.tlt b.objective s.objective = true) ∧
        report[2]? = some (['B', 'e', 's', 't', ' ', 'o', 'b', 'j', 'e', 'c', 't', 'i', 'v', 'e', ' ', 'v', 'a', 'l', 'u', 'e', ':', ' '] ++ fmt.sci8 b.objective)) := by
  have key : ∀ t : List (List Char), (header fmt set ++ t)[1]? = some (['T', 'o', 't', 'a', 'l', ' ', 's', 'o', 'l', 'u', 't', 'i', 'o', 'n', 's', ':', ' '] ++ fmt.nat set.length) ∧
      (set ≠ [] → ∃ (i : Nat) (b : Sol n), set[i]? = some b ∧
        (∀ (j : Nat) s, set[j]? = some s → F64.tlt s.objective b.objective = false) ∧
        (∀ (j : Nat) s, j < i → set[j]? = some s → F64.tlt b.objective s.objective = true) ∧
        (header fmt set ++ t)[2]? = some (['B', 'e', 's', 't', ' ', 'o', 'b', 'j', 'e', 'c', 't', 'i', 'v', 'e', ' ', 'v', 'a', 'l', 'u', 'e', ':', ' '] ++ fmt.sci8 b.objective)) := by
    intro t
    refine ⟨rfl, fun hne => ?_⟩
    cases hb : bestSolution set with
    | none => exact absurd ((C04_none_iff _).mp hb) hne
    | some b =>
      obtain ⟨i, h1, h2, h3⟩ := C04_first_minimum set b hb
      refine ⟨i, b, h1, h2, h3, ?_⟩
      unfold header
      rw [hb]
      have : set.isEmpty = false := by cases set <;> simp_all
      rw [this]
      rfl
  intro report hr
  simp only [List.mem_cons, List.not_mem_nil, or_false] at hr
  rcases hr with rfl | rfl | rfl
  · exact key _
  · exact key _
  · unfold displayWithProblem
    split
    · exact key _
    · exact key _

/-- What the first four lines about solution `i` of a report say, if its lines are from line `at_` on. -/
structure Tells (fmt : Fmt n) (report : List (List Char)) (at_ i : Nat) (s : Sol n) : Prop where
  number : report[at_]? = some (['S', 'o', 'l', 'u', 't', 'i', 'o', 'n', ' ', '#'] ++ fmt.nat (i + 1))
  objective : report[at_ + 1]? = some ([' ', ' ', 'O', 'b', 'j', 'e', 'c', 't', 'i', 'v', 'e', ':', ' '] ++ fmt.sci8 s.objective)
  title : report[at_ + 2]? = some [' ', ' ', 'P', 'a', 'r', 'a', 'm', 'e', 't', 'e', 'r', 's', ':']
  point : report[at_ + 3]? = some ([' ', ' ', ' ', ' '] ++ fmt.point s.point)

theorem tells_block (fmt : Fmt n) (ds : Option (List (List Char))) (cs : List (Pt n → F64)) (set : List (Sol n))
    (k i : Nat) (s : Sol n) (hs : set[i]? = some s)
    (hk : ∀ i' a', i' < i → set[i']? = some a' → (block fmt ds cs set.length i' a').length = k) :
    Tells fmt (header fmt set ++ (set.mapIdx fun i s => block fmt ds cs set.length i s).flatten)
      (headerLines set + i * k) i s := by
  have h4 : ∀ j, j < 4 → j < (block fmt ds cs set.length (0 + i) s).length := by
    intro j hj
    unfold block
    simp only [List.length_append, List.length_cons]
    omega
  have key : ∀ j, j < 4 → (header fmt set ++ (set.mapIdx fun i s => block fmt ds cs set.length i s).flatten)[
      headerLines set + i * k + j]? = (block fmt ds cs set.length i s)[j]? := by
    intro j hj
    have := flatten_blocks (fun i s => block fmt ds cs set.length i s) k set 0 i s hs
      (fun i' a' hi' ha' => by rw [Nat.zero_add]; exact hk i' a' hi' ha') j (h4 j hj)
    simp only [Nat.zero_add] at this
    rw [← header_length fmt set, List.getElem?_append_right (by omega)]
    rw [show (header fmt set).length + i * k + j - (header fmt set).length = i * k + j by omega, this]
  exact ⟨(key 0 (by omega)).trans rfl, (key 1 (by omega)).trans rfl, (key 2 (by omega)).trans rfl,
    (key 3 (by omega)).trans rfl⟩

/-- C68: every solution is reported with its number (from 1), its objective and its point, in the order of the set;
with `m > 0` constraints the lines of a solution are `m + 6` apart. -/
theorem C68_solution (fmt : Fmt n) (p : Problem n) (ds : Option (List (List Char))) (set : List (Sol n))
    (hc : p.constraints ≠ []) (i : Nat) (s : Sol n) (hs : set[i]? = some s) :
    Tells fmt (displayWithConstraints fmt p ds set) (headerLines set + i * (p.constraints.length + 6)) i s := by
  have hi : i < set.length := (List.getElem?_eq_some_iff.mp hs).1
  exact tells_block fmt ds p.constraints set _ i s hs fun i' a' hi' _ => by
    rw [block_length fmt ds _ hc, if_pos (by omega)]

/-- C68: the same for the report without constraints, with five lines from one solution to the next, and no others. -/
theorem C68_solution_plain (fmt : Fmt n) (set : List (Sol n)) (i : Nat) (s : Sol n) (hs : set[i]? = some s) :
    Tells fmt (display fmt set) (headerLines set + i * 5) i s := by
  have hi : i < set.length := (List.getElem?_eq_some_iff.mp hs).1
  refine tells_block fmt none [] set 5 i s hs fun i' a' hi' _ => ?_
  unfold block
  rw [if_pos (show i' < set.length - 1 by omega)]
  rfl

end GS.Props
