/- Reading the texts of errors. -/
import Verif.Model.Messages
import Verif.Lemmas.Names

namespace GS

/-- All NaN taken as one: what can be read from a printed number. -/
def F64.blur (x : F64) : F64 := if x.isNaN then F64.nan else x

/-- Numbers are written as Rust writes them: `usize` in decimal, `f64` without comma and so that it can be read back (but
for the bits of a NaN). The codes of evaluation errors stand for their messages. A hypothesis of theorems; no
counterpart in /repo. -/
structure Words.Readable (w : Words) : Prop where
  nat : ∀ k, w.nat k = Name.decimal k
  float : ∀ x y, w.float x = w.float y → x.blur = y.blur
  comma : ∀ x, ',' ∉ w.float x
  eval : ∀ x y, w.eval x = w.eval y → x = y

/-- Two texts that agree, cut at the first character without property `p`. -/
theorem cut {p : Char → Prop} {x y r s : List Char} {c d : Char} (hx : ∀ a ∈ x, p a) (hy : ∀ a ∈ y, p a) (hc : ¬ p c)
    (hd : ¬ p d) (h : x ++ c :: r = y ++ d :: s) : x = y ∧ c :: r = d :: s := by
  induction x generalizing y with
  | nil =>
    cases y with
    | nil => exact ⟨rfl, h⟩
    | cons b y =>
      simp only [List.nil_append, List.cons_append, List.cons.injEq] at h
      exact absurd (hy b (by simp)) (h.1 ▸ hc)
  | cons a x ih =>
    cases y with
    | nil =>
      simp only [List.nil_append, List.cons_append, List.cons.injEq] at h
      exact absurd (hx a (by simp)) (h.1 ▸ hd)
    | cons b y =>
      simp only [List.cons_append, List.cons.injEq] at h
      obtain ⟨h1, h2⟩ := ih (fun z hz => hx z (by simp [hz])) (fun z hz => hy z (by simp [hz])) h.2
      exact ⟨by rw [h.1, h1], h2⟩

theorem decAux_digits (f : Nat) : ∀ x, x < f → ∀ c ∈ Name.decAux f x, Name.IsDigit c := by
  have one : ∀ d < 10, Name.IsDigit (Char.ofNat (48 + d)) := by unfold Name.IsDigit; decide
  induction f with
  | zero => intro x h; omega
  | succ f ih =>
    intro x hx c hc
    unfold Name.decAux at hc
    split at hc
    · rename_i h
      rw [List.mem_singleton.1 hc]
      exact one x h
    · rcases List.mem_append.1 hc with h | h
      · exact ih (x / 10) (by omega) c h
      · rw [List.mem_singleton.1 h]
        exact one (x % 10) (by omega)

theorem decimal_digits (x : Nat) : ∀ c ∈ Name.decimal x, Name.IsDigit c := decAux_digits (x + 1) x (by omega)

theorem decimal_inj {x y : Nat} (h : Name.decimal x = Name.decimal y) : x = y := by
  have hx := Name.value_dec (x + 1) x (by omega) [] rfl
  have hy := Name.value_dec (y + 1) y (by omega) [] rfl
  simp only [List.nil_append] at hx hy
  rw [← hx, ← hy]
  exact congrArg _ h

/-- A number followed by something else can be read. -/
theorem read_nat {w : Words} (hw : w.Readable) {a b : Nat} {r s : List Char} {c d : Char} (hc : ¬ Name.IsDigit c)
    (hd : ¬ Name.IsDigit d) (h : w.nat a ++ c :: r = w.nat b ++ d :: s) : a = b ∧ c :: r = d :: s := by
  rw [hw.nat, hw.nat] at h
  obtain ⟨h1, h2⟩ := cut (decimal_digits a) (decimal_digits b) hc hd h
  exact ⟨decimal_inj h1, h2⟩

/-- The kind of an error. Custom points have one kind. -/
def Err.kind : Err → Fin 12
  | .localSolver _ => 0
  | .noFeasibleSolution _ => 1
  | .objectiveFailed => 2
  | .scatterNew _ => 3
  | .scatterRun _ => 4
  | .invalidPopulationSize _ => 5
  | .invalidIterations _ _ => 6
  | .distanceFilter _ => 7
  | .invalidThresholdFactor _ => 8
  | .customDimension _ _ _ => 9
  | .customOutOfBounds _ => 9
  | .checkpoint _ => 10
  | .panic => 11

/-- What the text of an error of this kind begins with. -/
def Err.tag : Fin 12 → List Char
  | 0 => "OQNLP Error: Local solver failed: ".toList
  | 1 => "OQNLP Error: No feasible solution found after evaluating ".toList
  | 2 => "OQNLP Error: Objective function evaluation failed during ".toList
  | 3 => "OQNLP Error: Failed to create a new ScatterSearch instance: ".toList
  | 4 => "OQNLP Error: Failed to run the ScatterSearch instance: ".toList
  | 5 => "OQNLP Error: Population size should be at least 3, got ".toList
  | 6 => "OQNLP Error: Iterations should be less than or equal to population size. OQNLP received `iterations`: ".toList
  | 7 => "OQNLP Error: Failed to create distance filter: ".toList
  | 8 => "OQNLP Error: Threshold factor must be positive, got ".toList
  | 9 => "OQNLP Error: Custom point at index ".toList
  | 10 => "OQNLP Error: Checkpointing error: ".toList
  | 11 => "?".toList

theorem Err.tags_apart : ∀ i j, (Err.tag i).isPrefixOf (Err.tag j) = true → i = j := by decide +kernel

/-- Lists of texts none of which begins another one: equal texts begin with the same one. -/
theorem apart_of_prefix {k : Nat} {tag : Fin k → List Char}
    (h : ∀ i j, (tag i).isPrefixOf (tag j) = true → i = j) {i j : Fin k} {t : List Char} (hi : tag i <+: t)
    (hj : tag j <+: t) : i = j := by
  rcases List.prefix_or_prefix_of_prefix hi hj with h' | h'
  · exact h i j (List.isPrefixOf_iff_prefix.2 h')
  · exact (h j i (List.isPrefixOf_iff_prefix.2 h')).symm

theorem Err.tag_text (w : Words) (e : Err) (h : e ≠ .panic) : Err.tag e.kind <+: e.text w := by
  have two : ∀ a b c : List Char, a <+: a ++ b ++ c := fun a b c => by
    rw [List.append_assoc]; exact List.prefix_append _ _
  cases e with
  | localSolver e => exact List.prefix_append _ _
  | noFeasibleSolution k => exact two _ _ _
  | objectiveFailed => exact two _ _ _
  | scatterNew e => exact List.prefix_append _ _
  | scatterRun e => exact List.prefix_append _ _
  | invalidPopulationSize p => exact two _ _ _
  | invalidIterations i p => exact (two _ _ _).trans (two _ _ _)
  | distanceFilter e => exact List.prefix_append _ _
  | invalidThresholdFactor t => exact two _ _ _
  | customDimension i e g => exact ((two _ _ _).trans (two _ _ _)).trans (two _ _ _)
  | customOutOfBounds i => exact two _ _ _
  | checkpoint e => exact List.prefix_append _ _
  | panic => exact absurd rfl h

/-- Kinds of local solver errors. -/
def LErr.kind : LErr → Fin 9
  | .invalidLBFGS => 0
  | .invalidNelderMead => 1
  | .invalidSteepestDescent => 2
  | .invalidTrustRegion => 3
  | .invalidNewtonCG => 4
  | .invalidCOBYLA => 5
  | .runFailed => 6
  | .noSolution => 7
  | .panicked => 8

/-- What their texts begin with. -/
def LErr.tag : Fin 9 → List Char
  | 0 => "Local Solver Error: Invalid LocalSolverConfig for L-BFGS solver. ".toList
  | 1 => "Local Solver Error: Invalid LocalSolverConfig for Nelder-Mead solver. ".toList
  | 2 => "Local Solver Error: Invalid LocalSolverConfig for Steepest Descent solver. ".toList
  | 3 => "Local Solver Error: Invalid LocalSolverConfig for Trust Region solver. ".toList
  | 4 => "Local Solver Error: Invalid LocalSolverConfig for Newton-CG method solver. ".toList
  | 5 => "Local Solver Error: Invalid LocalSolverConfig for COBYLA solver. ".toList
  | 6 => "Local Solver Error: unknown failed to run: ".toList
  | 7 => "Local Solver Error: unknown found no solution after ".toList
  | 8 => "?".toList

theorem LErr.tags_apart : ∀ i j, (LErr.tag i).isPrefixOf (LErr.tag j) = true → i = j := by decide +kernel

theorem LErr.tag_text (w : Words) (e : LErr) (h : e ≠ .panicked) : LErr.tag e.kind <+: e.text w := by
  cases e <;> first
    | exact absurd rfl h
    | exact List.prefix_append _ _

theorem LErr.text_inj {w : Words} {a b : LErr} (ha : a ≠ .panicked) (hb : b ≠ .panicked)
    (h : a.text w = b.text w) : a = b := by
  have := apart_of_prefix LErr.tags_apart (LErr.tag_text w a ha) (h ▸ LErr.tag_text w b hb)
  cases a <;> cases b <;> first
    | rfl
    | (revert this; decide)

/-- Kinds of scatter search errors. -/
def ScatterErr.kind : ScatterErr → Fin 5
  | .noCandidates => 0
  | .noFeasibleCandidates _ _ => 1
  | .evaluation _ => 2
  | .invalidBounds _ _ _ => 3
  | .panic => 4

/-- What their texts begin with. -/
def ScatterErr.tag : Fin 5 → List Char
  | 0 => "Scatter Search Error: No candidates left".toList
  | 1 => "Scatter Search Error: No feasible candidates found after ".toList
  | 2 => "Scatter Search Error: Evaluation failed during ".toList
  | 3 => "Scatter Search Error: Invalid bounds for variable ".toList
  | 4 => "?".toList

theorem ScatterErr.tags_apart : ∀ i j, (ScatterErr.tag i).isPrefixOf (ScatterErr.tag j) = true → i = j := by
  decide +kernel

theorem ScatterErr.tag_text (w : Words) (e : ScatterErr) (h : e ≠ .panic) : ScatterErr.tag e.kind <+: e.text w := by
  have two : ∀ a b c : List Char, a <+: a ++ b ++ c := fun a b c => by
    rw [List.append_assoc]; exact List.prefix_append _ _
  cases e with
  | noCandidates => exact List.prefix_rfl
  | noFeasibleCandidates a d => exact (two _ _ _).trans (two _ _ _)
  | evaluation e => exact (two _ _ _).trans (List.prefix_append _ _)
  | invalidBounds d l u => exact ((two _ _ _).trans (two _ _ _)).trans (two _ _ _)
  | panic => exact absurd rfl h

/-- Kinds of checkpoint errors. -/
def CkErr.kind : CkErr → Fin 5
  | .io => 0
  | .serialization => 1
  | .notFound => 2
  | .invalid => 3
  | .directory => 4

/-- What their texts begin with. -/
def CkErr.tag : Fin 5 → List Char
  | 0 => "IO error during ".toList
  | 1 => "Serialization error during ".toList
  | 2 => "Checkpoint file not found at: ".toList
  | 3 => "Invalid checkpoint data in '".toList
  | 4 => "Failed to create checkpoint directory '".toList

theorem CkErr.tags_apart : ∀ i j, (CkErr.tag i).isPrefixOf (CkErr.tag j) = true → i = j := by decide +kernel

theorem CkErr.text_inj {w : Words} {a b : CkErr} (h : a.text w = b.text w) : a = b := by
  have ht : ∀ e : CkErr, CkErr.tag e.kind <+: e.text w := by
    intro e
    cases e <;> exact List.prefix_append _ _
  have := apart_of_prefix CkErr.tags_apart (ht a) (h ▸ ht b)
  cases a <;> cases b <;> first
    | rfl
    | (revert this; decide)

end GS
