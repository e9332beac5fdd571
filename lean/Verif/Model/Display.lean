/- Text reports of a solution set: src/types.rs 308-391 and 397-455.

A report is a list of lines (without the line breaks, which the code writes after every line).  Number and
array formatting of the standard library and ndarray is a parameter. -/
import Verif.Model.SolutionSet

namespace GS.Display
variable {n : Nat}

/-- Formatting by the standard library and ndarray: the `{:.8e}`/`{}` arguments of `Display for
SolutionSet` in src/types.rs. -/
structure Fmt (n : Nat) where
  /-- `{}` of a `usize` -/
  nat : Nat → List Char
  /-- `{:.8e}` -/
  sci8 : F64 → List Char
  /-- `{:.6e}` -/
  sci6 : F64 → List Char
  /-- `{:.6}` -/
  fix6 : F64 → List Char
  /-- `{:.8e}` of an array -/
  point : Pt n → List Char

/-- `status`: src/types.rs 357. -/
def mark (v : F64) : Char := if F64.ge v F64.zero then '✓' else '✗'

/-- `violation`: src/types.rs 358-362. -/
def violation (fmt : Fmt n) (v : F64) : List Char :=
  if F64.lt v F64.zero then [' ', '(', 'v', 'i', 'o', 'l', 'a', 't', 'e', 'd', ' ', 'b', 'y', ' '] ++ fmt.fix6 v.fneg ++ [')']
  else [' ', '(', 's', 'a', 't', 'i', 's', 'f', 'i', 'e', 'd', ')']

/-- `description`: src/types.rs 365-373. -/
def description (ds : Option (List (List Char))) (j : Nat) : List Char :=
  match ds with
  | none => []
  | some l =>
    match l[j]? with
    | some d => [' ', '['] ++ d ++ [']']
    | none => []

/-- The line of a constraint: src/types.rs 375-382. -/
def constraintLine (fmt : Fmt n) (ds : Option (List (List Char))) (j : Nat) (v : F64) : List Char :=
  [' ', ' ', ' ', ' ', 'C', 'o', 'n', 's', 't', 'r', 'a', 'i', 'n', 't', ' '] ++ fmt.nat (j + 1) ++ description ds j ++ [':', ' '] ++ [mark v] ++ [' '] ++
    fmt.sci6 v ++ violation fmt v

/-- The separator after every solution but the last: src/types.rs 386-388. -/
def separator : List Char := ['―', '―', '―', '―', '―', '―', '―', '―', '―', '―', '―', '―', '―', '―', '―', '―', '―', '―', '―', '―', '―', '―', '―', '―', '―', '―', '―', '―', '―', '―', '―', '―', '―', '―', '―', '―']

/-- Header: src/types.rs 333-341. -/
def header (fmt : Fmt n) (set : List (Sol n)) : List (List Char) :=
  [['━', '━', '━', '━', '━', '━', '━', '━', '━', '━', '━', ' ', 'S', 'o', 'l', 'u', 't', 'i', 'o', 'n', ' ', 'S', 'e', 't', ' ', '━', '━', '━', '━', '━', '━', '━', '━', '━', '━', '━'], ['T', 'o', 't', 'a', 'l', ' ', 's', 'o', 'l', 'u', 't', 'i', 'o', 'n', 's', ':', ' '] ++ fmt.nat set.length] ++
    (match bestSolution set with
      | some b => if set.isEmpty then [] else [['B', 'e', 's', 't', ' ', 'o', 'b', 'j', 'e', 'c', 't', 'i', 'v', 'e', ' ', 'v', 'a', 'l', 'u', 'e', ':', ' '] ++ fmt.sci8 b.objective]
      | none => []) ++
    [['━', '━', '━', '━', '━', '━', '━', '━', '━', '━', '━', '━', '━', '━', '━', '━', '━', '━', '━', '━', '━', '━', '━', '━', '━', '━', '━', '━', '━', '━', '━', '━', '━', '━', '━', '━']]

/-- One solution: src/types.rs 343-388. -/
def block (fmt : Fmt n) (ds : Option (List (List Char))) (constraints : List (Pt n → F64)) (total i : Nat)
    (s : Sol n) : List (List Char) :=
  [['S', 'o', 'l', 'u', 't', 'i', 'o', 'n', ' ', '#'] ++ fmt.nat (i + 1), [' ', ' ', 'O', 'b', 'j', 'e', 'c', 't', 'i', 'v', 'e', ':', ' '] ++ fmt.sci8 s.objective,
      [' ', ' ', 'P', 'a', 'r', 'a', 'm', 'e', 't', 'e', 'r', 's', ':'], [' ', ' ', ' ', ' '] ++ fmt.point s.point] ++
    (if constraints.isEmpty then []
      else [' ', ' ', 'C', 'o', 'n', 's', 't', 'r', 'a', 'i', 'n', 't', ' ', 'v', 'i', 'o', 'l', 'a', 't', 'i', 'o', 'n', 's', ':'] ::
        constraints.mapIdx fun j g => constraintLine fmt ds j (g s.point)) ++
    (if i < total - 1 then [separator] else [])

/-- `display_with_constraints`: src/types.rs 324-391. -/
def displayWithConstraints (fmt : Fmt n) (p : Problem n) (ds : Option (List (List Char)))
    (set : List (Sol n)) : List (List Char) :=
  header fmt set ++ (set.mapIdx fun i s => block fmt ds p.constraints set.length i s).flatten

/-- `Display`: src/types.rs 426-450. -/
def display (fmt : Fmt n) (set : List (Sol n)) : List (List Char) :=
  header fmt set ++ (set.mapIdx fun i s => block fmt none [] set.length i s).flatten

/-- `display_with_problem`: src/types.rs 405-414. -/
def displayWithProblem (fmt : Fmt n) (p : Problem n) (set : List (Sol n)) : List (List Char) :=
  if p.constraints.isEmpty then display fmt set else displayWithConstraints fmt p none set

end GS.Display
