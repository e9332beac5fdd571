/- C120: calls of the configuration classes and builder functions of the Python module. -/
import Verif.Model.PyCalls

namespace GS.Py
open GS GS.Builders

/-- The line search a builder function finds in an object: any of the three classes. -/
def searchIn : PyObj → Option PyLineSearch
  | .lineSearchParams p => some p
  | .moreThuente p => some (.moreThuente p)
  | .hagerZhang p => some (.hagerZhang p)
  | _ => none

/-- C120 for the classes: each argument that is given is kept, each one that is not has the default of the class.
These are the documented ones except for `bounds` (`C120_stub_violated`). -/
theorem C120_classes :
    (∀ a : HagerZhangCall, ∃ p, a.cls = .ok p ∧ p.delta = a.delta.getD (F64.lit 1 10) ∧
      p.sigma = a.sigma.getD (F64.lit 9 10) ∧ p.epsilon = a.epsilon.getD (F64.lit 1 1000000) ∧
      p.theta = a.theta.getD (F64.lit 1 2) ∧ p.gamma = a.gamma.getD (F64.lit 66 100) ∧
      p.eta = a.eta.getD (F64.lit 1 100) ∧ p.bounds = a.bounds.getD [sqrtEps, F64.inf]) ∧
    (∀ a : MoreThuenteCall, ∃ p, a.cls = .ok p ∧ p.c1 = a.c1.getD (F64.lit 1 10000) ∧
      p.c2 = a.c2.getD (F64.lit 9 10) ∧ p.widthTolerance = a.widthTolerance.getD (F64.lit 1 10000000000) ∧
      p.bounds = a.bounds.getD [sqrtEps, F64.inf]) ∧
    (∀ a : NelderMeadCall, ∃ p, a.cls = .ok p ∧ p.simplexDelta = a.simplexDelta.getD (F64.lit 1 10) ∧
      p.sdTolerance = a.sdTolerance.getD eps ∧ p.maxIter = a.maxIter.getD 300 ∧ p.alpha = a.alpha.getD F64.one ∧
      p.gamma = a.gamma.getD F64.two ∧ p.rho = a.rho.getD (F64.lit 1 2) ∧ p.sigma = a.sigma.getD (F64.lit 1 2)) ∧
    (∀ a : TrustRegionCall, ∃ p, a.cls = .ok p ∧ p.method = a.method.getD .cauchy ∧
      p.maxIter = a.maxIter.getD 300 ∧ p.radius = a.radius.getD F64.one ∧
      p.maxRadius = a.maxRadius.getD (F64.lit 100 1) ∧ p.eta = a.eta.getD (F64.lit 1 8)) :=
  ⟨fun _ => ⟨_, rfl, rfl, rfl, rfl, rfl, rfl, rfl, rfl⟩, fun _ => ⟨_, rfl, rfl, rfl, rfl, rfl⟩,
    fun _ => ⟨_, rfl, rfl, rfl, rfl, rfl, rfl, rfl, rfl⟩, fun _ => ⟨_, rfl, rfl, rfl, rfl, rfl, rfl⟩⟩

/-- C120 for the classes with a line search: without one it is the default More-Thuente search; a
`PyLineSearchParams` is kept; any other object raises `TypeError`.  The default tolerance of `PyNewtonCG` is not the
documented one (`C120_stub_violated`). -/
theorem C120_searching :
    (∀ a : LBFGSCall, ∀ s, (a.lineSearch = none ∧ s = .moreThuente .default ∨
        a.lineSearch = some (.lineSearchParams s)) →
      ∃ p, a.cls = .ok p ∧ p.maxIter = a.maxIter.getD 300 ∧ p.toleranceGrad = a.toleranceGrad.getD sqrtEps ∧
        p.toleranceCost = a.toleranceCost.getD eps ∧ p.historySize = a.historySize.getD 10 ∧
        p.l1Coefficient = a.l1Coefficient ∧ p.lineSearch = s) ∧
    (∀ a : SteepestDescentCall, ∀ s, (a.lineSearch = none ∧ s = .moreThuente .default ∨
        a.lineSearch = some (.lineSearchParams s)) →
      ∃ p, a.cls = .ok p ∧ p.maxIter = a.maxIter.getD 300 ∧ p.lineSearch = s) ∧
    (∀ a : NewtonCGCall, ∀ s, (a.lineSearch = none ∧ s = .moreThuente .default ∨
        a.lineSearch = some (.lineSearchParams s)) →
      ∃ p, a.cls = .ok p ∧ p.maxIter = a.maxIter.getD 300 ∧
        p.curvatureThreshold = a.curvatureThreshold.getD F64.zero ∧ p.tolerance = a.tolerance.getD eps ∧
        p.lineSearch = s) ∧
    (∀ o : PyObj, (∀ s, o ≠ .lineSearchParams s) →
      (∀ a : LBFGSCall, a.lineSearch = some o → a.cls = .error .typeError) ∧
      (∀ a : SteepestDescentCall, a.lineSearch = some o → a.cls = .error .typeError) ∧
      (∀ a : NewtonCGCall, a.lineSearch = some o → a.cls = .error .typeError)) := by
  refine ⟨?_, ?_, ?_, ?_⟩
  · rintro ⟨_, _, _, _, _, _⟩ s (⟨rfl, rfl⟩ | rfl)
    · exact ⟨_, rfl, rfl, rfl, rfl, rfl, rfl, rfl⟩
    · exact ⟨_, rfl, rfl, rfl, rfl, rfl, rfl, rfl⟩
  · rintro ⟨_, _⟩ s (⟨rfl, rfl⟩ | rfl)
    · exact ⟨_, rfl, rfl, rfl⟩
    · exact ⟨_, rfl, rfl, rfl⟩
  · rintro ⟨_, _, _, _⟩ s (⟨rfl, rfl⟩ | rfl)
    · exact ⟨_, rfl, rfl, rfl, rfl, rfl⟩
    · exact ⟨_, rfl, rfl, rfl, rfl, rfl⟩
  · intro o ho
    refine ⟨?_, ?_, ?_⟩
    · rintro ⟨_, _, _, _, _, _⟩ rfl
      cases o <;> first | rfl | exact absurd rfl (ho _)
    · rintro ⟨_, _⟩ rfl
      cases o <;> first | rfl | exact absurd rfl (ho _)
    · rintro ⟨_, _, _, _⟩ rfl
      cases o <;> first | rfl | exact absurd rfl (ho _)

/-- C120 for COBYLA: class and function accept every call, keep what is given and use the documented defaults for the
rest. -/
theorem C120_cobyla (a : COBYLACall) : ∃ p, a.cls = .ok p ∧ a.fn = .ok p ∧ p.maxIter = a.maxIter.getD 300 ∧
    p.stepSize = a.stepSize.getD F64.one ∧ p.ftolRel = a.ftolRel ∧ p.ftolAbs = a.ftolAbs ∧ p.xtolRel = a.xtolRel ∧
    p.xtolAbs = a.xtolAbs :=
  ⟨_, rfl, rfl, rfl, rfl, rfl, rfl, rfl, rfl⟩

/-- C120 for the other functions (partial): with all arguments given (for `lbfgs` all but `l1_coefficient`) each is
kept, and the line search may be an object of any of the three classes; another object raises `TypeError`.  Missing:
calls with omitted arguments (`C120_required_violated`). -/
theorem C120_complete_partial :
    (∀ d s e t g h b, (⟨some d, some s, some e, some t, some g, some h, some b⟩ : HagerZhangCall).fn =
      .ok ⟨d, s, e, t, g, h, b⟩) ∧
    (∀ c d w b, (⟨some c, some d, some w, some b⟩ : MoreThuenteCall).fn = .ok ⟨c, d, w, b⟩) ∧
    (∀ d s m a g r t, (⟨some d, some s, some m, some a, some g, some r, some t⟩ : NelderMeadCall).fn =
      .ok ⟨d, s, m, a, g, r, t⟩) ∧
    (∀ m i r x e, (⟨some m, some i, some r, some x, some e⟩ : TrustRegionCall).fn = .ok ⟨m, i, r, x, e⟩) ∧
    (∀ m g c h l o, (⟨some m, some g, some c, some h, l, some o⟩ : LBFGSCall).fn =
      ((searchIn o).elim (.error .typeError) fun s => .ok ⟨m, g, c, h, l, s⟩)) ∧
    (∀ m o, (⟨some m, some o⟩ : SteepestDescentCall).fn =
      ((searchIn o).elim (.error .typeError) fun s => .ok ⟨m, s⟩)) ∧
    (∀ m c t o, (⟨some m, some c, some t, some o⟩ : NewtonCGCall).fn =
      ((searchIn o).elim (.error .typeError) fun s => .ok ⟨m, c, t, s⟩)) := by
  refine ⟨fun _ _ _ _ _ _ _ => rfl, fun _ _ _ _ => rfl, fun _ _ _ _ _ _ _ => rfl, fun _ _ _ _ _ => rfl, ?_, ?_, ?_⟩
  · intro m g c h l o
    cases o <;> rfl
  · intro m o
    cases o <;> rfl
  · intro m c t o
    cases o <;> rfl

/-- C120 is violated by seven of the eight functions: a call that omits any argument (other than `l1_coefficient`)
raises `TypeError`, although the stub file gives each of them a default. -/
theorem C120_required_violated :
    (∀ a : HagerZhangCall, (a.delta = none ∨ a.sigma = none ∨ a.epsilon = none ∨ a.theta = none ∨ a.gamma = none ∨
      a.eta = none ∨ a.bounds = none) → a.fn = .error .typeError) ∧
    (∀ a : MoreThuenteCall, (a.c1 = none ∨ a.c2 = none ∨ a.widthTolerance = none ∨ a.bounds = none) →
      a.fn = .error .typeError) ∧
    (∀ a : NelderMeadCall, (a.simplexDelta = none ∨ a.sdTolerance = none ∨ a.maxIter = none ∨ a.alpha = none ∨
      a.gamma = none ∨ a.rho = none ∨ a.sigma = none) → a.fn = .error .typeError) ∧
    (∀ a : TrustRegionCall, (a.method = none ∨ a.maxIter = none ∨ a.radius = none ∨ a.maxRadius = none ∨
      a.eta = none) → a.fn = .error .typeError) ∧
    (∀ a : LBFGSCall, (a.maxIter = none ∨ a.toleranceGrad = none ∨ a.toleranceCost = none ∨ a.historySize = none ∨
      a.lineSearch = none) → a.fn = .error .typeError) ∧
    (∀ a : SteepestDescentCall, (a.maxIter = none ∨ a.lineSearch = none) → a.fn = .error .typeError) ∧
    (∀ a : NewtonCGCall, (a.maxIter = none ∨ a.curvatureThreshold = none ∨ a.tolerance = none ∨
      a.lineSearch = none) → a.fn = .error .typeError) := by
  refine ⟨?_, ?_, ?_, ?_, ?_, ?_, ?_⟩
  · rintro ⟨_ | _, _ | _, _ | _, _ | _, _ | _, _ | _, _ | _⟩ h <;> first | rfl | simp at h
  · rintro ⟨_ | _, _ | _, _ | _, _ | _⟩ h <;> first | rfl | simp at h
  · rintro ⟨_ | _, _ | _, _ | _, _ | _, _ | _, _ | _, _ | _⟩ h <;> first | rfl | simp at h
  · rintro ⟨_ | _, _ | _, _ | _, _ | _, _ | _⟩ h <;> first | rfl | simp at h
  · rintro ⟨_ | _, _ | _, _ | _, _ | _, _, _ | _⟩ h <;> first | rfl | simp at h
  · rintro ⟨_ | _, _ | _⟩ h <;> first | rfl | simp at h
  · rintro ⟨_ | _, _ | _, _ | _, _ | _⟩ h <;> first | rfl | simp at h

/-- C120 is violated by three things the stub file says about classes: the default `bounds` end at `10e20` (`1e20` in
the text) and the default `tolerance` of `PyNewtonCG` is `1.490116119384766e-8`, python/pyglobalsearch.pyi 494, 511, 538,
734, but a line search without bounds has no upper one and Newton-CG uses the machine epsilon; and a `MoreThuente` or
`HagerZhang` may be passed as `line_search_params` (605-607, 697-699, 735-737), but raises `TypeError`. -/
theorem C120_stub_violated :
    (∀ a : HagerZhangCall, a.bounds = none → ∃ p, a.cls = .ok p ∧ ∀ x, p.bounds ≠ [x, F64.lit (10 ^ 21) 1] ∧
      p.bounds ≠ [x, F64.lit (10 ^ 20) 1]) ∧
    (∀ a : MoreThuenteCall, a.bounds = none → ∃ p, a.cls = .ok p ∧ ∀ x, p.bounds ≠ [x, F64.lit (10 ^ 21) 1] ∧
      p.bounds ≠ [x, F64.lit (10 ^ 20) 1]) ∧
    (∀ a : NewtonCGCall, a.tolerance = none → ∀ p, a.cls = .ok p →
      p.tolerance ≠ F64.lit 1490116119384766 (10 ^ 23)) ∧
    (∀ (a : LBFGSCall) (m : PyMoreThuente) (h : PyHagerZhang),
      ({ a with lineSearch := some (.moreThuente m) } : LBFGSCall).cls = .error .typeError ∧
      ({ a with lineSearch := some (.hagerZhang h) } : LBFGSCall).cls = .error .typeError) := by
  have h1 : F64.inf ≠ F64.lit (10 ^ 21) 1 := by decide +kernel
  have h2 : F64.inf ≠ F64.lit (10 ^ 20) 1 := by decide +kernel
  have h3 : eps ≠ F64.lit 1490116119384766 (10 ^ 23) := by decide +kernel
  have hb : ∀ (y z : F64), F64.inf ≠ z → ∀ x, [y, F64.inf] ≠ [x, z] := by
    intro y z hz x h
    injection h with _ h
    injection h with h _
    exact hz h
  refine ⟨?_, ?_, ?_, fun a m h => ⟨rfl, rfl⟩⟩
  · rintro ⟨_, _, _, _, _, _, _⟩ rfl
    exact ⟨_, rfl, fun x => ⟨hb _ _ h1 x, hb _ _ h2 x⟩⟩
  · rintro ⟨_, _, _, _⟩ rfl
    exact ⟨_, rfl, fun x => ⟨hb _ _ h1 x, hb _ _ h2 x⟩⟩
  · rintro ⟨m, c, t, o⟩ rfl p hp
    cases hl : lineSearchParamsArg o with
    | error e =>
      unfold NewtonCGCall.cls at hp
      rw [hl] at hp
      cases hp
    | ok s =>
      unfold NewtonCGCall.cls at hp
      rw [hl] at hp
      injection hp with hp
      subst hp
      exact h3

/-! Non-vacuity: documented calls. -/

/-- `PyHagerZhang()` works, `builders.hagerzhang()` does not. -/
example : (({} : HagerZhangCall).cls = .ok .default) ∧ (({} : HagerZhangCall).fn = .error .typeError) := ⟨rfl, rfl⟩

/-- `builders.hagerzhang(delta=0.01, sigma=0.99)`. -/
example : ({ delta := some (F64.lit 1 100), sigma := some (F64.lit 99 100) } : HagerZhangCall).fn =
    .error .typeError := rfl

/-- `builders.cobyla(max_iter=500)`. -/
example : ({ maxIter := some 500 } : COBYLACall).fn = .ok ⟨500, F64.one, none, none, none, none⟩ := rfl

/-- The classes do not take a bare line search, the functions do. -/
example : ({ lineSearch := some (.hagerZhang .default) } : SteepestDescentCall).cls = .error .typeError ∧
    (⟨some 7, some (.hagerZhang .default)⟩ : SteepestDescentCall).fn = .ok ⟨7, .hagerZhang .default⟩ := ⟨rfl, rfl⟩

end GS.Py
