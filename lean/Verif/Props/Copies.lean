/- C122: copies and debug texts of configurations and observers. -/
import Verif.Model.Copies
import Verif.Model.CkptText
import Verif.Props.Python
import Verif.Props.PyText

namespace GS.Props
open GS GS.Witness Py

/-- A copy of a solver configuration or an observer is the same as the original: every setting, every count, the
callback, and what was shown last. -/
theorem C122_copies {n : Nat} (c : SolverConfig) (o : Obs n) : c.clone = c ∧ o.clone = o :=
  ⟨by cases c <;> rfl, rfl⟩

/-- The settings as far as a printed text can show them: all but the kinds of NaN. -/
def blurCobyla : SolverConfig → Option (Nat × List F64 × List F64)
  | .cobyla m i fr fa xr xa => some (m, [i.blur, fr.blur, fa.blur, xr.blur], xa.map F64.blur)
  | _ => none

/-- The solver named by a debug text, found by its first and third character. -/
def solverIn : List Char → SolverType
  | 'L' :: _ => .lbfgs
  | 'S' :: _ => .steepestDescent
  | 'T' :: _ => .trustRegion
  | _ :: _ :: 'l' :: _ => .nelderMead
  | _ :: _ :: 'w' :: _ => .newtonCG
  | _ => .cobyla

theorem solverIn_debug (w : Py.Words) (c : SolverConfig) : solverIn (c.debug w) = kindOf c := by
  cases c <;> rfl

/-- The debug text of a configuration tells the solver, and for COBYLA all settings. -/
theorem C122_debug {w : Py.Words} (hw : Legible w) (c d : SolverConfig) (h : c.debug w = d.debug w) :
    kindOf c = kindOf d ∧ blurCobyla c = blurCobyla d := by
  have hk : kindOf c = kindOf d := by
    rw [← solverIn_debug w, ← solverIn_debug w, h]
  refine ⟨hk, ?_⟩
  cases c <;> cases d <;> first | (simp [kindOf] at hk; done) | rfl | skip
  have hco : ¬ Name.IsDigit ',' := by unfold Name.IsDigit; decide
  have field : ∀ {x y : F64} {p r s : List Char}, w.dbg x ++ ((',' :: p) ++ r) = w.dbg y ++ ((',' :: p) ++ s) →
      x.blur = y.blur ∧ r = s := by
    intro x y p r s h
    obtain ⟨h1, h2⟩ := dbg_cut hw ⟨',', _, rfl, .inl rfl⟩ ⟨',', _, rfl, .inl rfl⟩ h
    exact ⟨h1, List.append_cancel_left (List.cons.inj h2).2⟩
  have h := List.append_cancel_left h
  rw [hw.nat, hw.nat] at h
  obtain ⟨h1, h⟩ := cut (decimal_digits _) (decimal_digits _) hco hco h
  have h := List.append_cancel_left (as := " initial_step_size: ".toList) (List.cons.inj h).2
  obtain ⟨h2, h⟩ := field h
  obtain ⟨h3, h⟩ := field h
  obtain ⟨h4, h⟩ := field h
  obtain ⟨h5, h⟩ := field h
  obtain ⟨h6, -⟩ := vec_inj hw _ _ _ _ h
  dsimp only [blurCobyla]
  rw [decimal_inj h1, h2, h3, h4, h5, h6]

/-- The debug text of a configuration begins with the name of its solver, as a checkpoint shows it. -/
theorem C122_name (w : Py.Words) (c : SolverConfig) : (kindOf c).debug ++ " { ".toList <+: c.debug w := by
  cases c with
  | cobyla m i fr fa xr xa => exact ⟨"max_iter: ".toList ++ _, rfl⟩
  | _ => exact ⟨".. }".toList, rfl⟩

/-- The settings of COBYLA are printed under their names. -/
theorem C122_labels (w : Py.Words) (m : Nat) (i fr fa xr : F64) (xa : List F64) :
    "{ max_iter: ".toList ++ w.nat m ++ [','] <:+: (SolverConfig.cobyla m i fr fa xr xa).debug w ∧
    " initial_step_size: ".toList ++ w.dbg i ++ [','] <:+: (SolverConfig.cobyla m i fr fa xr xa).debug w ∧
    " ftol_rel: ".toList ++ w.dbg fr ++ [','] <:+: (SolverConfig.cobyla m i fr fa xr xa).debug w ∧
    " ftol_abs: ".toList ++ w.dbg fa ++ [','] <:+: (SolverConfig.cobyla m i fr fa xr xa).debug w ∧
    " xtol_rel: ".toList ++ w.dbg xr ++ [','] <:+: (SolverConfig.cobyla m i fr fa xr xa).debug w ∧
    " xtol_abs: ".toList ++ Py.vec w xa ++ [' ', '}'] <:+: (SolverConfig.cobyla m i fr fa xr xa).debug w := by
  have front : ∀ (x p v e r : List Char), p ++ v ++ e <:+: x ++ p ++ (v ++ (e ++ r)) := fun x p v e r =>
    ⟨x, r, by simp only [List.append_assoc]⟩
  have skip : ∀ {a y : List Char} (p v : List Char), a <:+: y → a <:+: p ++ (v ++ y) := fun p v h =>
    h.trans ⟨p ++ v, [], by simp only [List.append_assoc, List.append_nil]⟩
  refine ⟨?_, ?_, ?_, ?_, ?_, ?_⟩
  · exact front "COBYLA ".toList _ _ _ _
  · exact skip _ _ (front [','] _ _ _ _)
  · exact skip _ _ (skip _ _ (front [','] _ _ _ _))
  · exact skip _ _ (skip _ _ (skip _ _ (front [','] _ _ _ _)))
  · exact skip _ _ (skip _ _ (skip _ _ (skip _ _ (front [','] _ _ _ _))))
  · exact skip _ _ (skip _ _ (skip _ _ (skip _ _ (skip _ _ (front [','] _ _ _ [])))))

/-- Two configurations of COBYLA with different tolerances, told apart by their text. -/
example : (SolverConfig.cobyla 300 F64.one F64.zero F64.zero F64.zero []).debug plainly ≠
    (SolverConfig.cobyla 300 F64.one F64.zero F64.zero F64.one []).debug plainly := by decide +kernel

example : Legible plainly := plainly_legible

end GS.Props
