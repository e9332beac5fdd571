/- Properties C39, C40, C52: the checkpoint file format. -/
import Verif.Lemmas.BincodeExact
import Verif.Lemmas.Demo

namespace GS.Props
open GS F64 Witness

/-- A checkpoint with infinities, a NaN with payload, an absent and an empty array. -/
def sampleCkpt : WCkpt where
  params := params 10 20 7
  currentIteration := 3
  meritThreshold := ⟨true, infMag + 5, by decide⟩
  solutionSet := some [⟨[F64.one, F64.zero], ⟨false, infMag, by decide⟩⟩]
  referenceSet := [[F64.one], []]
  unchangedCycles := 1
  elapsedTime := F64.lit 3 2
  distanceFilterSolutions := []
  currentSeed := 10
  targetObjective := none
  excludeOutOfBounds := true
  rayon := some (some 4, true)
  absTol := F64.zero
  relTol := F64.lit 1 100
  timestamp := "2025-06-01T00:00:00Z"

theorem stampLen : "2025-06-01T00:00:00Z".toByteArray.data.toList.length = 20 := by decide +kernel

theorem sampleCkpt_ok (a p : Bool) : CkptOk ⟨a, true, p⟩ sampleCkpt where
  params := ⟨by decide, by decide, by decide, by decide, fun _ => rfl, by decide, by decide⟩
  iter := by decide
  set := fun l hl => by
    cases hl
    refine ⟨by decide, fun s hs => ?_⟩
    rw [List.mem_singleton.1 hs]
    exact by decide
  ref := ⟨by decide, fun p hp => by
    rcases List.mem_cons.1 hp with h | h
    · rw [h]; exact by decide
    · rw [List.mem_singleton.1 h]; exact by decide⟩
  unchanged := by decide
  dist := ⟨by decide, fun s hs => by cases hs⟩
  seed := by decide
  rayon := rfl
  batch := fun b p h => by cases h; decide
  stamp := by
    show "2025-06-01T00:00:00Z".toByteArray.data.toList.length < 2 ^ 64
    rw [stampLen]; decide

/-- C39: decoding the written bytes gives back the checkpoint, bit for bit, and reads exactly the
written bytes. -/
theorem C39_round_trip (f : Feat) (c : WCkpt) (hc : CkptOk f c) (extra : Bytes) :
    Dec.ckpt f (Enc.ckpt f c ++ extra) = some (c, extra) := Dec.Reads.ckpt f c hc extra

/-- C39: loading the written file gives back the checkpoint. -/
theorem C39_load (f : Feat) (c : WCkpt) (hc : CkptOk f c) :
    decodeFile f (Enc.ckpt f c) = some c := by
  have h := C39_round_trip f c hc []
  rw [List.append_nil] at h
  rw [decodeFile, h]
  rfl

example : decodeFile ⟨true, true, false⟩ (Enc.ckpt ⟨true, true, false⟩ sampleCkpt) = some sampleCkpt :=
  C39_load _ _ (sampleCkpt_ok _ _)

theorem ptOf_ofFn {n : Nat} (p : Pt n) : ptOf n (List.ofFn p) = some p := by
  unfold ptOf
  rw [dif_pos (by simp)]
  congr 1
  funext i
  simp

theorem mapM_map {α β : Type} {g : β → Option α} {h : α → β} (hg : ∀ a, g (h a) = some a) (l : List α) :
    (l.map h).mapM g = some l := by
  induction l with
  | nil => rfl
  | cons a l ih => simp [hg, ih]

/-- C39 at the level of the optimizer: the checkpoint of a problem of any dimension survives writing and
reading. -/
theorem C39_optimizer {n : Nat} (a p : Bool) (c : Ckpt n) (hc : CkptOk ⟨a, true, p⟩ c.toWire) :
    (decodeFile ⟨a, true, p⟩ (Enc.ckpt ⟨a, true, p⟩ c.toWire)).bind (WCkpt.toCkpt n) = some c := by
  rw [C39_load _ _ hc, Option.bind_some]
  have hs : ∀ s : Sol n, WSol.toSol n ⟨List.ofFn s.point, s.objective⟩ = some s := fun s => by
    unfold WSol.toSol
    rw [ptOf_ofFn]; rfl
  obtain ⟨c1, c2, c3, c4, c5, c6, c7, c8, c9, c10, c11, c12, c13, c14, c15, c16⟩ := c
  unfold WCkpt.toCkpt Ckpt.toWire
  cases c4 with
  | none => simp [mapM_map hs, mapM_map (g := ptOf n) ptOf_ofFn]
  | some l => simp [mapM_map hs, mapM_map (g := ptOf n) ptOf_ofFn]

/-- A checkpoint of a two-dimensional run. -/
def sampleRun : Ckpt 2 where
  params := params 10 20 7
  currentIteration := 3
  meritThreshold := F64.inf
  solutionSet := some [⟨fun _ => F64.one, F64.zero⟩]
  referenceSet := [fun _ => F64.zero]
  unchangedCycles := 1
  elapsedTime := F64.lit 3 2
  distanceFilterSolutions := []
  currentSeed := 10
  targetObjective := some F64.nan
  excludeOutOfBounds := true
  batchIterations := none
  enableParallel := true
  absTol := F64.zero
  relTol := F64.lit 1 100
  timestamp := "2025-06-01T00:00:00Z"

theorem sampleRun_ok (a p : Bool) : CkptOk ⟨a, true, p⟩ sampleRun.toWire where
  params := ⟨by decide, by decide, by decide, by decide, fun _ => rfl, by decide, by decide⟩
  iter := by decide
  set := fun l hl => by
    cases hl
    refine ⟨by decide, fun s hs => ?_⟩
    rw [List.mem_singleton.1 hs]
    exact by decide
  ref := ⟨by decide, fun p hp => by rw [List.mem_singleton.1 hp]; exact by decide⟩
  unchanged := by decide
  dist := ⟨by decide, fun s hs => by cases hs⟩
  seed := by decide
  rayon := rfl
  batch := fun b p h => by cases h
  stamp := by
    show "2025-06-01T00:00:00Z".toByteArray.data.toList.length < 2 ^ 64
    rw [stampLen]; decide

example : (decodeFile ⟨true, true, false⟩ (Enc.ckpt ⟨true, true, false⟩ sampleRun.toWire)).bind
    (WCkpt.toCkpt 2) = some sampleRun := C39_optimizer _ _ _ (sampleRun_ok _ _)

/-- C39, converse: a file that loads consists of the encoding of the loaded checkpoint, possibly followed
by bytes that are ignored; so no two checkpoints share a file. -/
theorem C39_canonical (f : Feat) (b : Bytes) (c : WCkpt) (h : decodeFile f b = some c) :
    CkptOk f c ∧ ∃ extra, b = Enc.ckpt f c ++ extra := by
  unfold decodeFile at h
  cases hd : Dec.ckpt f b with
  | none => rw [hd] at h; cases h
  | some q =>
    obtain ⟨c', r⟩ := q
    rw [hd] at h
    simp only [Option.map_some, Option.some.injEq] at h
    subst h
    obtain ⟨h1, h2⟩ := Dec.Exact.ckpt f _ _ _ hd
    exact ⟨h1, r, h2⟩

example : ∃ b, decodeFile ⟨true, true, false⟩ b = some sampleCkpt := ⟨_, C39_load _ _ (sampleCkpt_ok _ _)⟩

/-- C40: no strict prefix of a checkpoint file loads. -/
theorem C40_truncated (f : Feat) (c : WCkpt) (hc : CkptOk f c) (k : Nat)
    (hk : k < (Enc.ckpt f c).length) : decodeFile f ((Enc.ckpt f c).take k) = none := by
  rw [decodeFile, Dec.prefix_fails (Dec.Reads.ckpt f) (Dec.Stable.ckpt f) hc hk]
  rfl

/-- The same said without `take`: if the file is cut anywhere, the rest being lost, it does not load. -/
theorem C40_prefix (f : Feat) (c : WCkpt) (hc : CkptOk f c) (written lost : Bytes)
    (h : Enc.ckpt f c = written ++ lost) (hl : lost ≠ []) : decodeFile f written = none := by
  have h1 := C40_truncated f c hc written.length (by
    rw [h, List.length_append]
    have := List.length_pos_iff.2 hl
    omega)
  rwa [h, List.take_left] at h1

example : decodeFile ⟨true, true, false⟩ ((Enc.ckpt ⟨true, true, false⟩ sampleCkpt).take 40) = none :=
  C40_truncated _ _ (sampleCkpt_ok _ _) 40 (by decide +kernel)

/-! ### C52 -/

theorem enc_feat {f g : Feat} (ha : f.argmin = g.argmin) (c : WCkpt) : Enc.ckpt f c = Enc.ckpt g c := by
  have h1 : ∀ t, Enc.solverType f t = Enc.solverType g t := fun t => by
    cases t <;> simp only [Enc.solverType, Enc.solverIndex, ha]
  have h2 : ∀ t, Enc.solverConfig f t = Enc.solverConfig g t := fun t => by
    cases t <;> simp only [Enc.solverConfig, ha]
  simp only [Enc.ckpt, Enc.params, h1, h2]

/-- Part of C52: a checkpoint loads unchanged in every build with the same `argmin` and `rayon` features.
The full property (any two builds) is false: see the theorems below. -/
theorem C52_same_features_partial (f g : Feat) (ha : f.argmin = g.argmin) (hr : f.rayon = g.rayon)
    (c : WCkpt) (hc : CkptOk f c) : decodeFile g (Enc.ckpt f c) = some c := by
  rw [enc_feat ha]
  refine C39_load g c ⟨⟨hc.params.1, hc.params.2.1, hc.params.2.2.1, hc.params.2.2.2.1,
    fun h => hc.params.2.2.2.2.1 (ha.trans h), ?_⟩, hc.iter, hc.set, hc.ref, hc.unchanged, hc.dist,
    hc.seed, hc.rayon.trans hr, hc.batch, hc.stamp⟩
  have h := hc.params.2.2.2.2.2
  cases hcfg : c.params.solverConfig <;> rw [hcfg] at h <;> simp only [ConfigOk, ← ha] <;> exact h

example : decodeFile ⟨true, true, true⟩ (Enc.ckpt ⟨true, true, false⟩ sampleCkpt) = some sampleCkpt :=
  C52_same_features_partial _ _ rfl rfl _ (sampleCkpt_ok _ _)

theorem enc_le_length (k x : Nat) : (Enc.le k x).length = k := by
  induction k generalizing x with
  | zero => rfl
  | succ k ih => simp [Enc.le, ih]

theorem u64_inj {x y : Nat} (hx : x < 2 ^ 64) (hy : y < 2 ^ 64) {r s : Bytes}
    (h : Enc.u64 x ++ r = Enc.u64 y ++ s) : x = y ∧ r = s := by
  have h1 := Dec.Reads.u64 x hx r
  rw [h, Dec.Reads.u64 y hy s] at h1
  simp only [Option.some.injEq, Prod.mk.injEq] at h1
  exact ⟨h1.1.symm, h1.2.symm⟩

theorem u32_inj {x y : Nat} (hx : x < 2 ^ 32) (hy : y < 2 ^ 32) {r s : Bytes}
    (h : Enc.u32 x ++ r = Enc.u32 y ++ s) : x = y ∧ r = s := by
  have h1 := Dec.Reads.u32 x hx r
  rw [h, Dec.Reads.u32 y hy s] at h1
  simp only [Option.some.injEq, Prod.mk.injEq] at h1
  exact ⟨h1.1.symm, h1.2.symm⟩

theorem append_inj_left {a b r s : Bytes} (hl : a.length = b.length) (h : a ++ r = b ++ s) : r = s :=
  (List.append_inj h hl).2

theorem index_lt (f : Feat) (t : SolverType) : Enc.solverIndex f t < 2 ^ 32 := by
  cases t <;> cases h : f.argmin <;> simp [Enc.solverIndex, h]

/-- C52 is false between builds that differ in `argmin`: whatever loads names another local solver. -/
theorem C52_argmin_violated (f g : Feat) (ha : f.argmin ≠ g.argmin) (c : WCkpt) (hc : CkptOk f c)
    (c' : WCkpt) (h : decodeFile g (Enc.ckpt f c) = some c') :
    c'.params.solverType ≠ c.params.solverType := by
  intro ht
  obtain ⟨h1, extra, h2⟩ := C39_canonical g _ c' h
  have hT := hc.params.2.2.2.2.1
  have hT' := h1.params.2.2.2.2.1
  have hcob : c.params.solverType = .cobyla := by
    cases hf : f.argmin
    · exact hT hf
    · have : g.argmin = false := by cases hg : g.argmin <;> simp_all
      rw [← ht]; exact hT' this
  have key : ∀ (f : Feat) (c : WCkpt) (x : Bytes), ∃ pre rest,
      Enc.ckpt f c ++ x = pre ++ (Enc.u32 (Enc.solverIndex f c.params.solverType) ++ rest) ∧
        pre.length = 40 := fun f c x =>
    ⟨Enc.u64 c.params.iterations ++ Enc.u64 c.params.populationSize ++ Enc.u64 c.params.waitCycle ++
      Enc.f64 c.params.thresholdFactor ++ Enc.f64 c.params.distanceFactor, _,
      by simp only [Enc.ckpt, Enc.params, Enc.solverType, List.append_assoc]; rfl,
      by simp only [List.length_append, Enc.u64, Enc.f64, enc_le_length]⟩
  obtain ⟨p1, r1, e1, l1⟩ := key f c []
  obtain ⟨p2, r2, e2, l2⟩ := key g c' extra
  rw [List.append_nil] at e1
  rw [e1, e2] at h2
  have h3 := (u32_inj (index_lt _ _) (index_lt _ _) (append_inj_left (l1.trans l2.symm) h2)).1
  rw [ht, hcob] at h3
  cases hf : f.argmin <;> cases hg : g.argmin <;> simp_all [Enc.solverIndex]

example : ∃ (f g : Feat) (c : WCkpt), f.argmin ≠ g.argmin ∧ CkptOk f c :=
  ⟨⟨true, true, false⟩, ⟨false, true, false⟩, sampleCkpt, by decide, sampleCkpt_ok _ _⟩

/-- Two checkpoints that agree in everything both builds know about. -/
def SameState (c c' : WCkpt) : Prop := c' = { c with rayon := c'.rayon }

/-- The part of the encoding before the `rayon` fields. -/
def encHead (f : Feat) (c : WCkpt) : Bytes :=
  Enc.params f c.params ++ Enc.u64 c.currentIteration ++ Enc.f64 c.meritThreshold ++
    Enc.option (Enc.array1 Enc.sol) c.solutionSet ++ Enc.list (Enc.list Enc.f64) c.referenceSet ++
    Enc.u64 c.unchangedCycles ++ Enc.f64 c.elapsedTime ++ Enc.list Enc.sol c.distanceFilterSolutions ++
    Enc.u64 c.currentSeed ++ Enc.option Enc.f64 c.targetObjective ++ Enc.bool c.excludeOutOfBounds

/-- The part after them. -/
def encTail (c : WCkpt) : Bytes := Enc.f64 c.absTol ++ (Enc.f64 c.relTol ++ Enc.str c.timestamp)

theorem enc_split (f : Feat) (c : WCkpt) :
    Enc.ckpt f c = encHead f c ++ (Enc.rayon c.rayon ++ encTail c) := by
  simp only [Enc.ckpt, encHead, encTail, List.append_assoc]

theorem rayon_length {b : Option Nat} {p : Bool} : 2 ≤ (Enc.rayon (some (b, p))).length := by
  cases b <;> simp [Enc.rayon, Enc.option, Enc.bool]

/-- C52 is false from a build without `rayon` to one with it: no checkpoint loads with the state that was
saved. -/
theorem C52_rayon_added_violated (f g : Feat) (ha : f.argmin = g.argmin) (hf : f.rayon = false)
    (hg : g.rayon = true) (c : WCkpt) (hc : CkptOk f c) (c' : WCkpt)
    (h : decodeFile g (Enc.ckpt f c) = some c') : ¬ SameState c c' := by
  intro hs
  obtain ⟨h1, extra, h2⟩ := C39_canonical g _ c' h
  have hn : c.rayon = none := by
    have := hc.rayon
    rw [hf] at this
    cases hr : c.rayon with
    | none => rfl
    | some _ => rw [hr] at this; cases this
  cases hr : c'.rayon with
  | none =>
    have := h1.rayon
    rw [hg, hr] at this; cases this
  | some q =>
    obtain ⟨b, p⟩ := q
    rw [enc_feat ha, enc_split, enc_split, hn, hr] at h2
    have h3 : encHead g c' = encHead g c := by rw [hs]; rfl
    have h4 : encTail c' = encTail c := by rw [hs]; rfl
    rw [h3, h4] at h2
    have h5 := congrArg List.length h2
    have h6 := rayon_length (b := b) (p := p)
    simp only [List.length_append] at h5
    have h7 : (Enc.rayon none).length = 0 := rfl
    omega

/-- The sample checkpoint of a build without `rayon`. -/
def sampleSeq : WCkpt := { sampleCkpt with rayon := none }

theorem sampleSeq_ok (a p : Bool) : CkptOk ⟨a, false, p⟩ sampleSeq :=
  have h := sampleCkpt_ok a p
  ⟨h.params, h.iter, h.set, h.ref, h.unchanged, h.dist, h.seed, rfl, (fun _ _ h => by cases h), h.stamp⟩

example : ∃ (f g : Feat) (c : WCkpt), f.argmin = g.argmin ∧ f.rayon = false ∧ g.rayon = true ∧
    CkptOk f c :=
  ⟨⟨true, false, false⟩, ⟨true, true, false⟩, sampleSeq, rfl, rfl, rfl, sampleSeq_ok _ _⟩

theorem byte_of_le {k x i : Nat} (hi : i < k) :
    (Enc.le k x)[i]? = some (UInt8.ofNat (x / 256 ^ i % 256)) := by
  induction k generalizing x i with
  | zero => omega
  | succ k ih =>
    cases i with
    | zero => simp [Enc.le]
    | succ i =>
      rw [Enc.le, List.getElem?_cons_succ, ih (by omega), Nat.div_div_eq_div_mul, Nat.pow_succ,
        Nat.mul_comm 256]

theorem period {x w e : Bytes} (h : x ++ w = w ++ e) (i : Nat) (hi : i + x.length < w.length) :
    w[i + x.length]? = w[i]? := by
  have e1 : (x ++ w)[i + x.length]? = w[i]? := by
    rw [List.getElem?_append_right (by omega), Nat.add_sub_cancel]
  rwa [h, List.getElem?_append_left hi] at e1

theorem period_init {x w e : Bytes} (h : x ++ w = w ++ e) (i : Nat) (hi : i < x.length)
    (hi' : i < w.length) : w[i]? = x[i]? := by
  have e1 : (x ++ w)[i]? = x[i]? := List.getElem?_append_left hi
  rwa [h, List.getElem?_append_left hi'] at e1

/-- C52 is false from a build with `rayon` to one without it: no checkpoint with a timestamp of ordinary
length loads with the state that was saved. -/
theorem C52_rayon_dropped_violated (f g : Feat) (ha : f.argmin = g.argmin) (hf : f.rayon = true)
    (hg : g.rayon = false) (c : WCkpt) (hc : CkptOk f c)
    (ht : 0 < c.timestamp.toByteArray.data.toList.length)
    (ht' : c.timestamp.toByteArray.data.toList.length < 2 ^ 32) (c' : WCkpt)
    (h : decodeFile g (Enc.ckpt f c) = some c') : ¬ SameState c c' := by
  intro hs
  obtain ⟨h1, extra, h2⟩ := C39_canonical g _ c' h
  have hn : c'.rayon = none := by
    have := h1.rayon
    rw [hg] at this
    cases hr : c'.rayon with
    | none => rfl
    | some _ => rw [hr] at this; cases this
  cases hr : c.rayon with
  | none =>
    have := hc.rayon
    rw [hf, hr] at this; cases this
  | some q =>
    obtain ⟨b, p⟩ := q
    rw [enc_feat ha, enc_split, enc_split, hn, hr, List.append_assoc] at h2
    have h3 : encHead g c' = encHead g c := by rw [hs]; rfl
    have h4 : encTail c' = encTail c := by rw [hs]; rfl
    rw [h3, h4] at h2
    have h5 : Enc.rayon (some (b, p)) ++ encTail c = encTail c ++ extra :=
      List.append_cancel_left h2
    -- the tail: 16 bytes of tolerances, 8 bytes of length, text
    obtain ⟨L, hL⟩ : ∃ L, L = c.timestamp.toByteArray.data.toList.length := ⟨_, rfl⟩
    rw [← hL] at ht ht'
    obtain ⟨tol, txt, hT, htol⟩ : ∃ tol txt, encTail c = tol ++ (Enc.le 8 L ++ txt) ∧ tol.length = 16 :=
      ⟨Enc.f64 c.absTol ++ Enc.f64 c.relTol, Enc.seq (fun b => [b]) c.timestamp.toByteArray.data.toList,
        by simp only [encTail, Enc.str, Enc.list, hL, Enc.u64, List.append_assoc],
        by simp [Enc.f64, Enc.u64, enc_le_length]⟩
    have hlen : 24 ≤ (encTail c).length := by
      rw [hT]; simp only [List.length_append, htol, enc_le_length]; omega
    have hper := period h5
    have hini := period_init h5
    have hbyte : ∀ (i : Nat), i < 8 → (encTail c)[16 + i]? = some (UInt8.ofNat (L / 256 ^ i % 256)) := by
      intro i hi
      rw [hT, List.getElem?_append_right (by omega), htol,
        List.getElem?_append_left (by rw [enc_le_length]; omega),
        show 16 + i - 16 = i from by omega, byte_of_le hi]
    have hz : ∀ i, 4 ≤ i → L / 256 ^ i = 0 := fun i hi => by
      refine Nat.div_eq_of_lt (Nat.lt_of_lt_of_le ht' ?_)
      calc 2 ^ 32 = 256 ^ 4 := by decide
        _ ≤ 256 ^ i := Nat.pow_le_pow_right (by decide) hi
    cases b with
    | some b =>
      have hl : (Enc.rayon (some (some b, p))).length = 10 := by
        simp [Enc.rayon, Enc.option, Enc.bool, Enc.u64, enc_le_length]
      rw [hl] at hper hini
      have e1 := hper 10 (by omega)
      have e2 := hper 0 (by omega)
      have e3 := hini 0 (by omega) (by omega)
      have e4 := hbyte 4 (by omega)
      rw [hz 4 (by omega)] at e4
      rw [show (Enc.rayon (some (some b, p)))[0]? = some 1 from rfl] at e3
      rw [show (16 + 4 : Nat) = 10 + 10 from rfl, e1, show (10 : Nat) = 0 + 10 from rfl, e2, e3] at e4
      revert e4; decide
    | none =>
      have hl : (Enc.rayon (some (none, p))).length = 2 := rfl
      rw [hl] at hper hini
      have hp : ∀ k i : Nat, i + 2 * k < (encTail c).length →
          (encTail c)[i + 2 * k]? = (encTail c)[i]? := by
        intro k
        induction k with
        | zero => intro i _; rfl
        | succ k ih =>
          intro i hi
          rw [show i + 2 * (k + 1) = (i + 2 * k) + 2 from by omega, hper _ (by omega), ih i (by omega)]
      have ev : ∀ i, 2 * i < 24 → (encTail c)[2 * i]? = some 0 := fun i hi => by
        have := hp i 0 (by omega)
        rw [Nat.zero_add] at this
        rw [this, hini 0 (by omega) (by omega)]; rfl
      have od : ∀ i, 2 * i + 1 < 24 → (encTail c)[2 * i + 1]? = some (if p then 1 else 0) := fun i hi => by
        have := hp i 1 (by omega)
        rw [show 2 * i + 1 = 1 + 2 * i from by omega, this, hini 1 (by omega) (by omega)]; rfl
      have e7 := hbyte 7 (by omega)
      rw [hz 7 (by omega), show (16 + 7 : Nat) = 2 * 11 + 1 from rfl, od 11 (by omega)] at e7
      cases p with
      | true => revert e7; decide
      | false =>
        have z : ∀ i, i < 8 → L / 256 ^ i % 256 = 0 := fun i hi => by
          have e := hbyte i hi
          have e' : (encTail c)[16 + i]? = some 0 := by
            by_cases hm : i % 2 = 0
            · rw [show 16 + i = 2 * (8 + i / 2) from by omega]; exact ev _ (by omega)
            · rw [show 16 + i = 2 * (8 + i / 2) + 1 from by omega]; exact od _ (by omega)
          rw [e', Option.some.injEq] at e
          have e2 := congrArg UInt8.toNat e
          simpa using e2.symm
        have z0 := z 0 (by omega)
        have z1 := z 1 (by omega)
        have z2 := z 2 (by omega)
        have z3 := z 3 (by omega)
        have z4 := hz 4 (by omega)
        simp only [Nat.reducePow] at z0 z1 z2 z3 z4
        omega

example : ∃ (f g : Feat) (c : WCkpt), f.argmin = g.argmin ∧ f.rayon = true ∧ g.rayon = false ∧
    CkptOk f c ∧ 0 < c.timestamp.toByteArray.data.toList.length ∧
    c.timestamp.toByteArray.data.toList.length < 2 ^ 32 :=
  ⟨⟨true, true, false⟩, ⟨true, false, false⟩, sampleCkpt, rfl, rfl, rfl, sampleCkpt_ok _ _,
    by rw [show sampleCkpt.timestamp = "2025-06-01T00:00:00Z" from rfl, stampLen]; decide,
    by rw [show sampleCkpt.timestamp = "2025-06-01T00:00:00Z" from rfl, stampLen]; decide⟩

end GS.Props
