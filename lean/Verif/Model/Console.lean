/- What the built-in callbacks print during a run: src/observers/mod.rs 658-900. -/
import Verif.Model.Oqnlp

namespace GS
variable {n : Nat}

/-- The built-in callback `id`: what it does to the observer it is given, and the lines it prints
(src/observers/mod.rs 658-900).  Other callbacks are the user's; they print nothing of their own here. -/
def Obs.builtin (id : Nat) (o : Obs n) : Obs n × List (Obs.Line n) :=
  if id = defaultCb then o.defaultCallback
  else if id = stage1Cb then o.stage1Callback
  else if id = stage2Cb then o.stage2Callback
  else (o, [])

/-- The three identifiers stand for the built-in callbacks. -/
def BuiltIn (env : Env n) : Prop := ∀ id k b, id ≤ stage2Cb → env.cb id k b = (b.builtin id).1

/-- The lines printed by an event of a run: the callback of the observer that is shown (`invoke_callback`,
src/observers/mod.rs 1078-1083). -/
def Event.printed : Event n → List (Obs.Line n)
  | .callback _ seen _ =>
    match seen.callback with
    | some id => (seen.builtin id).2
    | none => []
  | _ => []

/-- Everything printed to stderr by the built-in callbacks: the `eprintln!` lines of
src/observers/mod.rs 658-900 in the order of the run. -/
def console (tr : List (Event n)) : List (Obs.Line n) := tr.flatMap Event.printed

end GS
