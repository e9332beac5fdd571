/- C110: elapsed times written into checkpoints, and the time limit, in real time.  The instants at which a run
looks at the clock are arbitrary (`Clocked`). -/
import Verif.Lemmas.Elapsed
import Verif.Props.Resume
import Verif.Props.Distance
import Verif.Props.TimeLimit

namespace GS.Props
open GS F64 GS.Witness
variable {n : Nat}

/-! ### Specification -/

/-- Exact number of seconds between two instants in nanoseconds. -/
def seconds (a b : Nat) : ℚ := ((b - a : Nat) : ℚ) / 10 ^ 9

/-- `x` is `q` up to a relative error of `2^-51`. -/
def Near51 (x : F64) (q : ℚ) : Prop :=
  x.isFinite = true ∧ (1 - 1 / 2 ^ 51) * q ≤ realVal x ∧ realVal x ≤ (1 + 1 / 2 ^ 51) * q

/-- The checkpoints a run has made, in order, whether writing them succeeded or failed. -/
def made (tr : List (Event n)) : List (Ckpt n) :=
  tr.filterMap fun e => match e with
    | .saved _ c => some c
    | .saveFailed _ c => some c
    | _ => none

/-! ### Proofs -/

theorem pow3_le : (1 + uro) ^ 3 ≤ 1 + 1 / 2 ^ 51 := by unfold uro; norm_num
theorem pow3_ge : 1 - 1 / 2 ^ 51 ≤ (1 - uro) ^ 3 := by unfold uro; norm_num

theorem asSecs_near {ns : Nat} (h : ns < 2 ^ 52 * 10 ^ 9) : Near51 (asSecs ns) ((ns : ℚ) / 10 ^ 9) := by
  have hw := asSecs_within h
  have hf := asSecs_finite h
  have hq : (0 : ℚ) ≤ (ns : ℚ) / 10 ^ 9 := div_nonneg (Nat.cast_nonneg _) (by norm_num)
  generalize (ns : ℚ) / 10 ^ 9 = q at *
  have hv : realVal (asSecs ns) = (asSecs ns).av / scale := by
    rw [← sv_of_pos hw.pos]
    unfold realVal sv
    rw [scale_rat]
  have hs : (0 : ℚ) < scale := by exact_mod_cast scale_pos
  refine ⟨hf, ?_, ?_⟩
  · rw [hv, le_div_iff₀ hs]
    rcases hw.lower with hi | hl
    · rw [fin_not_inf hf] at hi; cases hi
    · refine le_trans ?_ hl
      rw [mul_assoc]
      exact mul_le_mul_of_nonneg_right pow3_ge (mul_nonneg hq hs.le)
  · rw [hv, div_le_iff₀ hs]
    refine hw.upper.trans ?_
    rw [mul_assoc]
    exact mul_le_mul_of_nonneg_right pow3_le (mul_nonneg hq hs.le)

theorem made_append (a b : List (Event n)) : made (a ++ b) = made a ++ made b := List.filterMap_append

/-- The `k`-th checkpoint of a run carries the `k`-th stamp. -/
theorem made_stamps {env : Env n} {o1 : Opt n} {m : M n} (h : Reach env ⟨o1, 0, 0, []⟩ m) :
    m.saves = (made m.trace).length ∧
    ∀ k c, (made m.trace)[k]? = some c → (c.elapsedTime, c.timestamp) = env.stamp k := by
  induction h with
  | refl => exact ⟨rfl, by intro k c hk; cases hk⟩
  | tail _ hp ih =>
    rename_i b c' _
    obtain ⟨i1, i2⟩ := ih
    have step : ∀ (e : Event n) (x : Ckpt n), made [e] = [x] →
        (x.elapsedTime, x.timestamp) = env.stamp b.saves →
        b.saves + 1 = (made (b.trace ++ [e])).length ∧
        ∀ k c, (made (b.trace ++ [e]))[k]? = some c → (c.elapsedTime, c.timestamp) = env.stamp k := by
      intro e x he hx
      rw [made_append, he]
      refine ⟨by rw [List.length_append, ← i1]; rfl, ?_⟩
      intro k c hk
      rcases Nat.lt_trichotomy k (made b.trace).length with hl | hl | hl
      · rw [List.getElem?_append_left hl] at hk; exact i2 k c hk
      · rw [List.getElem?_append_right hl.ge, hl, Nat.sub_self] at hk
        cases hk
        rw [hl, ← i1]; exact hx
      · rw [List.getElem?_append_right hl.le] at hk
        have : k - (made b.trace).length = (k - (made b.trace).length - 1) + 1 := by omega
        rw [this] at hk; cases hk
    cases hp with
    | opt => exact ⟨i1, i2⟩
    | uc => exact ⟨i1, i2⟩
    | log e hpl hg =>
      have : made (b.trace ++ [e]) = made b.trace := by
        rw [made_append]
        cases e <;> first | exact List.append_nil _ | cases hpl
      dsimp only
      rw [this]; exact ⟨i1, i2⟩
    | save hio => exact step _ _ rfl rfl
    | saveFail hio => exact step _ _ rfl rfl
    | proc s hs =>
      have : ∀ v, made (b.trace ++ [.processed s v]) = made b.trace := by
        intro v; rw [made_append]; exact List.append_nil _
      dsimp only
      rw [this]; exact ⟨i1, i2⟩

theorem run_stamps (env : Env n) (o : Opt n) (loaded : Option (Except CkErr (Ckpt n))) (k : Nat) (c : Ckpt n)
    (h : (made (run env o loaded).final.trace)[k]? = some c) : (c.elapsedTime, c.timestamp) = env.stamp k := by
  cases hs : startOpt env o loaded with
  | ok r =>
    obtain ⟨o1, b⟩ := r
    exact (made_stamps (run_reach env o loaded hs)).2 k c h
  | error e =>
    unfold run at h
    unfold startOpt at hs
    dsimp only at h
    rw [hs] at h
    cases h

/-- C110: the elapsed time in the `k`-th checkpoint of a run is the number of seconds from the start of the
run to the moment the checkpoint was made, up to a relative error of `2^-51`: fresh or resumed, sequential or
parallel, whether the checkpoint could be written or not. -/
theorem C110_elapsed {env : Env n} {o : Opt n} {loaded : Option (Except CkErr (Ckpt n))} {t : Instants}
    (hc : Clocked env t) {k : Nat} {c : Ckpt n} (h : (made (run env o loaded).final.trace)[k]? = some c) :
    Near51 c.elapsedTime (seconds t.start (t.save k)) := by
  have h1 := congrArg Prod.fst (run_stamps env o loaded k c h)
  dsimp only at h1
  rw [h1, hc.stamp k]
  exact asSecs_near (hc.saveRange k)

/-- C110: within a run the elapsed times of the checkpoints never decrease. -/
theorem C110_increasing {env : Env n} {o : Opt n} {loaded : Option (Except CkErr (Ckpt n))} {t : Instants}
    (hc : Clocked env t) {i j : Nat} {c d : Ckpt n} (hij : i ≤ j)
    (hi : (made (run env o loaded).final.trace)[i]? = some c)
    (hj : (made (run env o loaded).final.trace)[j]? = some d) :
    F64.le c.elapsedTime d.elapsedTime = true := by
  have h1 := congrArg Prod.fst (run_stamps env o loaded i c hi)
  have h2 := congrArg Prod.fst (run_stamps env o loaded j d hj)
  dsimp only at h1 h2
  rw [h1, h2, hc.stamp i, hc.stamp j]
  have hm := hc.saveMono i j hij
  exact le_iff.2 ⟨(asSecs_key (hc.saveRange i)).1, (asSecs_key (hc.saveRange j)).1,
    asSecs_key_mono (by omega) (hc.saveRange j)⟩

/-- C110: nothing a run does depends on the elapsed time or on the timestamp in the checkpoint it resumes
from. -/
theorem C110_not_read (env : Env n) (o : Opt n) (c : Ckpt n) (t : F64) (ts : String) :
    run env o (some (.ok { c with elapsedTime := t, timestamp := ts })) = run env o (some (.ok c)) := rfl

/-- A time limit in real time, part 1: if no batch of stage 2 begins later than the limit (up to a relative
error of `2^-50`) after stage 2 began, the limit changes neither result nor events. -/
theorem C110_limit_unreached {env : Env n} {o : Opt n} {x : F64} {loaded : Option (Except CkErr (Ckpt n))}
    {t : Instants} (hc : Clocked env t) (ho : o.maxTime = none) (hx : x.isFinite = true)
    (hl : ∀ k, (1 + 1 / 2 ^ 51) * seconds t.stage2 (t.batch k) ≤ realVal x) :
    (run env (o.setMaxTime x) loaded).result = (run env o loaded).result ∧
    (run env (o.setMaxTime x) loaded).final.trace = (run env o loaded).final.trace := by
  have := C88_unreached (env := env) (loaded := loaded) x ho (fun k => by
    rw [hc.clock k]
    obtain ⟨hf, _, hu⟩ := asSecs_near (hc.batchRange k)
    have h1 := hu.trans (hl k)
    unfold realVal at h1
    rw [div_le_div_iff_of_pos_right (by positivity)] at h1
    have h2 := toInt_le_iff.1 (by exact_mod_cast h1 : (asSecs (t.batch k - t.stage2)).toInt ≤ x.toInt)
    rw [Bool.eq_false_iff]
    intro hg
    have := (lt_iff.1 hg).2.2
    omega)
  exact ⟨this.1, this.2.1⟩

/-- A time limit in real time, part 2: if the `K`-th batch of stage 2 would begin later than the limit (up to a
relative error of `2^-50`) after stage 2 began, only the earlier batches are worked on. -/
theorem C110_limit_stops {env : Env n} {o : Opt n} {x : F64} {K : Nat} {t : Instants}
    {loaded : Option (Except CkErr (Ckpt n))} (hc : Clocked env t) (ht : o.maxTime = some x)
    (hx : x.isFinite = true) (hl : realVal x < (1 - 1 / 2 ^ 51) * seconds t.stage2 (t.batch K)) :
    (Fresh o loaded → (searched (run env o loaded).final.trace).length ≤ K * batchLimit o ∧
      evaluated (run env o loaded).final.trace = []) ∧
    (∀ c, Resumes o loaded c →
      (searched (run env o loaded).final.trace).length ≤ K * batchLimit (o.restore c) ∧
      (evaluated (run env o loaded).final.trace).length ≤ K * batchLimit (o.restore c)) := by
  refine C88_stops (K := K) ht ?_
  rw [hc.clock K]
  obtain ⟨hf, hu, _⟩ := asSecs_near (hc.batchRange K)
  have h1 := hl.trans_le hu
  unfold realVal at h1
  rw [div_lt_div_iff_of_pos_right (by positivity)] at h1
  have h2 := toInt_lt_iff.1 (by exact_mod_cast h1 : x.toInt < (asSecs (t.batch K - t.stage2)).toInt)
  exact lt_iff.2 ⟨fin_not_nan hx, fin_not_nan hf, h2⟩

/-! ### Examples and counterexample -/

/-- A clock that shows `k` seconds more at the `k`-th checkpoint and batch. -/
def ticks (s : Nat) : Instants where
  start := s
  stage2 := s
  save := fun k => s + min (k + 1) 100 * 10 ^ 9
  batch := fun k => s + min k 100 * 10 ^ 9

/-- The example environment with this clock. -/
def tickEnv : Env 1 :=
  { env stay with
    stamp := fun k => (asSecs (min (k + 1) 100 * 10 ^ 9), "t")
    clock := fun k => asSecs (min k 100 * 10 ^ 9) }

theorem tick_clocked (s : Nat) : Clocked (tickEnv) (ticks s) where
  stamp := fun k => by
    show asSecs _ = asSecs (s + _ - s)
    rw [Nat.add_sub_cancel_left]
  clock := fun k => by
    show asSecs _ = asSecs (s + _ - s)
    rw [Nat.add_sub_cancel_left]
  saveMono := fun i j h => by unfold ticks; dsimp only; omega
  batchMono := fun i j h => by unfold ticks; dsimp only; omega
  start_le := by unfold ticks; dsimp only; omega
  stage2_le := by unfold ticks; dsimp only; omega
  saveRange := fun k => by unfold ticks; dsimp only; omega
  batchRange := fun k => by unfold ticks; dsimp only; omega

/-- The demonstration optimizer, saving after every iteration and resuming automatically. -/
def savingEach : Opt 1 := demoSeq.withCheckpointing ⟨"run", 1, false, true⟩

example : ((made (run tickEnv savingEach none).final.trace).map (·.elapsedTime)).length = 5 ∧
    ((made (run tickEnv savingEach none).final.trace).map (·.elapsedTime))[3]? = some (num 4) := by
  decide +kernel

theorem num_val {k : Nat} (h : k < 2 ^ 52) : (num k).isFinite = true ∧ realVal (num k) = k := by
  refine ⟨(ofNat_exact h).1, ?_⟩
  have hs : (0 : ℚ) < scale := by exact_mod_cast scale_pos
  unfold num realVal
  rw [ofNat_toInt h, ← scale_rat]
  push_cast
  field_simp

/-- A limit of one second is exceeded by the third batch, one of two hundred seconds by none. -/
example : realVal (num 1) < (1 - 1 / 2 ^ 51) * seconds (ticks 0).stage2 ((ticks 0).batch 2) ∧
    ∀ k, (1 + 1 / 2 ^ 51) * seconds (ticks 0).stage2 ((ticks 0).batch k) ≤ realVal (num 200) := by
  rw [(num_val (by decide)).2, (num_val (by decide)).2]
  unfold seconds ticks
  dsimp only
  refine ⟨by norm_num, fun k => ?_⟩
  have h : ((0 + min k 100 * 10 ^ 9 - 0 : Nat) : ℚ) ≤ ((100 * 10 ^ 9 : Nat) : ℚ) := by
    apply Nat.cast_le.2; omega
  generalize ((0 + min k 100 * 10 ^ 9 - 0 : Nat) : ℚ) = y at h
  norm_num at h ⊢
  linarith

/-- The last checkpoint of a run. -/
def lastMade (r : RunResult n) : Option (Ckpt n) := (made r.final.trace).getLast?

/-- C110 as stated is false of the code across interruptions: the elapsed time in the checkpoints of a resumed
optimization counts from the resumption, so it is smaller than the one in the checkpoint the run resumed from,
although the clock has moved on; see also `C110_not_read`. -/
theorem C110_violated : ∃ (e e' : Env 1) (t t' : Instants) (o : Opt 1) (c d : Ckpt 1), Clocked e t ∧
    Clocked e' t' ∧ (∀ k, t.save k ≤ t'.start) ∧ c ∈ made (run e o none).final.trace ∧
    Resumes o (some (.ok c)) c ∧ d ∈ made (run e' o (some (.ok c))).final.trace ∧
    F64.lt d.elapsedTime c.elapsedTime = true := by
  have h1 : (lastMade (run tickEnv savingEach none)).isSome = true := by decide +kernel
  obtain ⟨c, hc⟩ := Option.isSome_iff_exists.1 h1
  have hcm : c ∈ made (run tickEnv savingEach none).final.trace := List.mem_of_getLast? hc
  have h2 : ((lastMade (run tickEnv savingEach none)).bind fun c =>
      (lastMade (run tickEnv savingEach (some (.ok c)))).map fun d =>
        F64.lt d.elapsedTime c.elapsedTime) = some true := by decide +kernel
  rw [hc, Option.bind_some] at h2
  obtain ⟨d, hd, hlt⟩ := Option.map_eq_some_iff.1 h2
  refine ⟨tickEnv, tickEnv, ticks 0, ticks (10 ^ 12), savingEach, c, d, tick_clocked _, tick_clocked _,
    ?_, hcm, ?_, List.mem_of_getLast? hd, hlt⟩
  · intro k
    unfold ticks; dsimp only; omega
  · exact ⟨rfl, ⟨"run", 1, false, true⟩, rfl, rfl⟩

end GS.Props
