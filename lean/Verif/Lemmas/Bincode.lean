/- Round trip and stability of the checkpoint codec. -/
import Verif.Model.Bincode

namespace GS

namespace Dec
variable {α β : Type}

theorem bind_some {d : Dec α} {f : α → Dec β} {b r : Bytes} {a : α} (h : d b = some (a, r)) :
    bind d f b = f a r := by simp [bind, h]

theorem pure_apply (a : α) (b : Bytes) : pure a b = some (a, b) := rfl

/-- Reading back what was written, for values satisfying `P`. -/
def Reads (d : Dec α) (e : α → Bytes) (P : α → Prop) : Prop :=
  ∀ a, P a → ∀ r, d (e a ++ r) = some (a, r)

/-- More input after a successful decode changes nothing. -/
def Stable (d : Dec α) : Prop :=
  ∀ b a r, d b = some (a, r) → ∀ x, d (b ++ x) = some (a, r ++ x)

/-! ### Stability -/

theorem Stable.pure (a : α) : Stable (pure a) := by
  intro b a' r h x
  simp only [Dec.pure, Option.some.injEq, Prod.mk.injEq] at h ⊢
  exact ⟨h.1, by rw [h.2]⟩

theorem Stable.fail : Stable (fail : Dec α) := by
  intro b a r h; simp [Dec.fail] at h

theorem Stable.bind {d : Dec α} {f : α → Dec β} (hd : Stable d) (hf : ∀ a, Stable (f a)) :
    Stable (bind d f) := by
  intro b a r h x
  unfold Dec.bind at h ⊢
  cases hb : d b with
  | none => rw [hb] at h; simp at h
  | some p =>
    obtain ⟨a1, r1⟩ := p
    rw [hb] at h
    rw [hd b a1 r1 hb x]
    exact hf a1 r1 a r h x

theorem Stable.ite {c : Prop} [Decidable c] {d e : Dec α} (hd : Stable d) (he : Stable e) :
    Stable (if c then d else e) := by
  by_cases h : c
  · rw [if_pos h]; exact hd
  · rw [if_neg h]; exact he

theorem Stable.byte : Stable byte := by
  intro b a r h x
  cases b with
  | nil => simp [Dec.byte] at h
  | cons y ys =>
    simp only [Dec.byte, Option.some.injEq, Prod.mk.injEq] at h
    simp only [List.cons_append, Dec.byte, h.1, h.2]

theorem Stable.le : ∀ k, Stable (le k)
  | 0 => Stable.pure 0
  | k + 1 => Stable.byte.bind fun _ => (Stable.le k).bind fun _ => Stable.pure _

theorem Stable.u64 : Stable u64 := Stable.le 8
theorem Stable.u32 : Stable u32 := Stable.le 4
theorem Stable.f64 : Stable f64 := Stable.u64.bind fun _ => Stable.pure _
theorem Stable.bool : Stable bool :=
  Stable.byte.bind fun _ => Stable.ite (Stable.pure _) (Stable.ite (Stable.pure _) Stable.fail)

theorem Stable.option {d : Dec α} (hd : Stable d) : Stable (option d) :=
  Stable.byte.bind fun _ => Stable.ite (Stable.pure _)
    (Stable.ite (hd.bind fun _ => Stable.pure _) Stable.fail)

theorem Stable.rep {d : Dec α} (hd : Stable d) : ∀ k, Stable (rep d k)
  | 0 => Stable.pure []
  | k + 1 => hd.bind fun _ => (Stable.rep hd k).bind fun _ => Stable.pure _

theorem Stable.list {d : Dec α} (hd : Stable d) : Stable (list d) :=
  Stable.u64.bind fun k => Stable.rep hd k

theorem Stable.str : Stable str :=
  Stable.u64.bind fun k => (Stable.rep Stable.byte k).bind fun l => by
    cases String.fromUTF8? ⟨l.toArray⟩ with
    | none => exact Stable.fail
    | some s => exact Stable.pure s

theorem Stable.array1 {d : Dec α} (hd : Stable d) : Stable (array1 d) :=
  Stable.byte.bind fun _ => Stable.ite
    (Stable.u64.bind fun _ => (Stable.list hd).bind fun _ => Stable.ite (Stable.pure _) Stable.fail)
    Stable.fail

theorem Stable.solverType (f : Feat) : Stable (solverType f) :=
  Stable.u32.bind fun i => Stable.ite
    (by split <;> first | exact Stable.pure _ | exact Stable.fail)
    (by split <;> first | exact Stable.pure _ | exact Stable.fail)

theorem Stable.lineSearch : Stable lineSearch :=
  Stable.u32.bind fun i => by
    split
    · exact Stable.f64.bind fun _ => Stable.f64.bind fun _ => Stable.f64.bind fun _ =>
        (Stable.array1 Stable.f64).bind fun _ => Stable.pure _
    · exact Stable.f64.bind fun _ => Stable.f64.bind fun _ => Stable.f64.bind fun _ =>
        Stable.f64.bind fun _ => Stable.f64.bind fun _ => Stable.f64.bind fun _ =>
        (Stable.array1 Stable.f64).bind fun _ => Stable.pure _
    · exact Stable.fail

theorem Stable.radiusMethod : Stable radiusMethod :=
  Stable.u32.bind fun i => by split <;> first | exact Stable.pure _ | exact Stable.fail

theorem Stable.cobyla : Stable cobyla :=
  Stable.u64.bind fun _ => Stable.f64.bind fun _ => Stable.f64.bind fun _ => Stable.f64.bind fun _ =>
    Stable.f64.bind fun _ => (Stable.list Stable.f64).bind fun _ => Stable.pure _

theorem Stable.solverConfig (f : Feat) : Stable (solverConfig f) :=
  Stable.u32.bind fun i => Stable.ite
    (by
      split
      · exact Stable.u64.bind fun _ => Stable.f64.bind fun _ => Stable.f64.bind fun _ =>
          Stable.u64.bind fun _ => (Stable.option Stable.f64).bind fun _ =>
          Stable.lineSearch.bind fun _ => Stable.pure _
      · exact Stable.f64.bind fun _ => Stable.f64.bind fun _ => Stable.u64.bind fun _ =>
          Stable.f64.bind fun _ => Stable.f64.bind fun _ => Stable.f64.bind fun _ =>
          Stable.f64.bind fun _ => Stable.pure _
      · exact Stable.u64.bind fun _ => Stable.lineSearch.bind fun _ => Stable.pure _
      · exact Stable.radiusMethod.bind fun _ => Stable.u64.bind fun _ => Stable.f64.bind fun _ =>
          Stable.f64.bind fun _ => Stable.f64.bind fun _ => Stable.pure _
      · exact Stable.u64.bind fun _ => Stable.f64.bind fun _ => Stable.f64.bind fun _ =>
          Stable.lineSearch.bind fun _ => Stable.pure _
      · exact Stable.cobyla
      · exact Stable.fail)
    (by
      split
      · exact Stable.cobyla
      · exact Stable.fail)

theorem Stable.params (f : Feat) : Stable (params f) :=
  Stable.u64.bind fun _ => Stable.u64.bind fun _ => Stable.u64.bind fun _ => Stable.f64.bind fun _ =>
    Stable.f64.bind fun _ => (Stable.solverType f).bind fun _ => (Stable.solverConfig f).bind fun _ =>
    Stable.u64.bind fun _ => Stable.pure _

theorem Stable.sol : Stable sol :=
  (Stable.array1 Stable.f64).bind fun _ => Stable.f64.bind fun _ => Stable.pure _

theorem Stable.rayon (f : Feat) : Stable (rayon f) := by
  unfold Dec.rayon
  exact Stable.ite ((Stable.option Stable.u64).bind fun _ => Stable.bool.bind fun _ => Stable.pure _)
    (Stable.pure _)

theorem Stable.ckpt (f : Feat) : Stable (ckpt f) :=
  (Stable.params f).bind fun _ => Stable.u64.bind fun _ => Stable.f64.bind fun _ =>
    (Stable.option (Stable.array1 Stable.sol)).bind fun _ =>
    (Stable.list (Stable.list Stable.f64)).bind fun _ => Stable.u64.bind fun _ =>
    Stable.f64.bind fun _ => (Stable.list Stable.sol).bind fun _ => Stable.u64.bind fun _ =>
    (Stable.option Stable.f64).bind fun _ => Stable.bool.bind fun _ => (Stable.rayon f).bind fun _ =>
    Stable.f64.bind fun _ => Stable.f64.bind fun _ => Stable.str.bind fun _ => Stable.pure _

/-- A decoder that reads an encoding back and is stable fails on every strict prefix of it. -/
theorem prefix_fails {d : Dec α} {e : α → Bytes} {P : α → Prop} (hr : Reads d e P) (hs : Stable d)
    {a : α} (ha : P a) {k : Nat} (hk : k < (e a).length) : d ((e a).take k) = none := by
  cases h : d ((e a).take k) with
  | none => rfl
  | some p =>
    obtain ⟨a', r'⟩ := p
    have h1 := hs _ _ _ h ((e a).drop k)
    rw [List.take_append_drop] at h1
    have h2 := hr a ha []
    rw [List.append_nil] at h2
    rw [h2] at h1
    simp only [Option.some.injEq, Prod.mk.injEq] at h1
    have h3 := congrArg List.length h1.2
    simp only [List.length_nil, List.length_append, List.length_drop] at h3
    omega

/-! ### Round trip -/

theorem Reads.le (k : Nat) : Reads (le k) (Enc.le k) (fun x => x < 256 ^ k) := by
  induction k with
  | zero =>
    intro x hx r
    simp only [Nat.pow_zero, Nat.lt_one_iff] at hx
    simp [Dec.le, Enc.le, pure_apply, hx]
  | succ k ih =>
    intro x hx r
    have h1 : x / 256 < 256 ^ k := by
      rw [Nat.div_lt_iff_lt_mul (by decide)]
      rwa [Nat.pow_succ] at hx
    have h2 : (UInt8.ofNat (x % 256)).toNat = x % 256 := by simp
    rw [Enc.le, Dec.le, List.cons_append, bind_some (r := Enc.le k (x / 256) ++ r) rfl,
      bind_some (ih _ h1 r), pure_apply, h2]
    have h3 := Nat.mod_add_div x 256
    rw [h3]

theorem Reads.u64 : Reads u64 Enc.u64 (fun x => x < 2 ^ 64) := fun a ha r =>
  Reads.le 8 a (by have h : (256 : Nat) ^ 8 = 2 ^ 64 := by decide
                   rw [h]; exact ha) r

theorem Reads.u32 : Reads u32 Enc.u32 (fun x => x < 2 ^ 32) := fun a ha r =>
  Reads.le 4 a (by have h : (256 : Nat) ^ 4 = 2 ^ 32 := by decide
                   rw [h]; exact ha) r

theorem bits_lt (x : F64) : Enc.bits x < 2 ^ 64 := by
  have h1 := x.h
  unfold Enc.bits
  split <;> omega

theorem ofBits_bits (x : F64) : ofBits (Enc.bits x) = x := by
  obtain ⟨n, m, h⟩ := x
  cases n
  · have h1 : ¬ (2 ^ 63 ≤ m) := by omega
    have h2 : m % 2 ^ 63 = m := Nat.mod_eq_of_lt h
    simp only [ofBits, Enc.bits, Bool.false_eq_true, if_false, Nat.zero_add]
    simp only [h1, h2, decide_false]
  · have h2 : (2 ^ 63 + m) % 2 ^ 63 = m := by rw [Nat.add_mod_left]; exact Nat.mod_eq_of_lt h
    simp only [ofBits, Enc.bits, if_true, Nat.le_add_right, decide_true, h2]

theorem Reads.f64 : Reads f64 Enc.f64 (fun _ => True) := fun a _ r => by
  unfold Dec.f64 Enc.f64
  rw [bind_some (Reads.u64 _ (bits_lt a) r), pure_apply, ofBits_bits]

theorem Reads.byte : Reads byte (fun b => [b]) (fun _ => True) := fun _ _ _ => rfl

theorem Reads.bool : Reads bool Enc.bool (fun _ => True) := fun a _ r => by
  cases a <;> rfl

theorem Reads.option {d : Dec α} {e : α → Bytes} {P : α → Prop} (h : Reads d e P) :
    Reads (option d) (Enc.option e) (fun o => ∀ a, o = some a → P a) := fun o ho r => by
  cases o with
  | none => rfl
  | some a =>
    show (bind d fun a => pure (some a)) (e a ++ r) = _
    rw [bind_some (h a (ho a rfl) r), pure_apply]

theorem Reads.rep {d : Dec α} {e : α → Bytes} {P : α → Prop} (h : Reads d e P) (l : List α)
    (hl : ∀ a ∈ l, P a) (r : Bytes) : rep d l.length (Enc.seq e l ++ r) = some (l, r) := by
  induction l with
  | nil => rfl
  | cons a l ih =>
    have h1 : Enc.seq e (a :: l) = e a ++ Enc.seq e l := by simp [Enc.seq]
    rw [h1, List.append_assoc, List.length_cons, Dec.rep, bind_some (h a (hl a (by simp)) _),
      bind_some (ih fun b hb => hl b (by simp [hb])), pure_apply]

theorem Reads.list {d : Dec α} {e : α → Bytes} {P : α → Prop} (h : Reads d e P) :
    Reads (list d) (Enc.list e) (fun l => l.length < 2 ^ 64 ∧ ∀ a ∈ l, P a) := fun l hl r => by
  unfold Dec.list Enc.list
  rw [List.append_assoc, bind_some (Reads.u64 _ hl.1 _), Reads.rep h l hl.2]

theorem fromUTF8?_toByteArray (s : String) : String.fromUTF8? s.toByteArray = some s := by
  unfold String.fromUTF8?
  simp only [s.isValidUTF8, dite_true]
  rfl

theorem Reads.str : Reads str Enc.str (fun s => s.toByteArray.data.toList.length < 2 ^ 64) :=
  fun s hs r => by
    unfold Dec.str Enc.str Enc.list
    rw [List.append_assoc, bind_some (Reads.u64 _ hs _),
      bind_some (Reads.rep Reads.byte _ (fun _ _ => trivial) r)]
    have h : (⟨s.toByteArray.data.toList.toArray⟩ : ByteArray) = s.toByteArray := by simp
    rw [h, fromUTF8?_toByteArray]
    rfl

theorem Reads.array1 {d : Dec α} {e : α → Bytes} {P : α → Prop} (h : Reads d e P) :
    Reads (array1 d) (Enc.array1 e) (fun l => l.length < 2 ^ 64 ∧ ∀ a ∈ l, P a) := fun l hl r => by
  unfold Dec.array1 Enc.array1
  rw [List.cons_append, bind_some (r := Enc.u64 l.length ++ Enc.list e l ++ r) rfl, if_pos rfl]
  rw [List.append_assoc, bind_some (Reads.u64 _ hl.1 _), bind_some (Reads.list h l hl r), if_pos rfl,
    pure_apply]

theorem Reads.f64s : Reads (Dec.array1 Dec.f64) (Enc.array1 Enc.f64) Short := fun l hl r =>
  Reads.array1 Reads.f64 l ⟨hl, fun _ _ => trivial⟩ r

theorem Reads.vec : Reads (Dec.list Dec.f64) (Enc.list Enc.f64) Short := fun l hl r =>
  Reads.list Reads.f64 l ⟨hl, fun _ _ => trivial⟩ r

theorem Reads.opt {d : Dec α} {e : α → Bytes} (h : Reads d e (fun _ => True)) :
    Reads (Dec.option d) (Enc.option e) (fun _ => True) := fun o _ r =>
  Reads.option h o (fun _ _ => trivial) r

theorem u32_lit {k : Nat} (hk : k < 2 ^ 32) {f : Nat → Dec β} (r : Bytes) :
    bind u32 f (Enc.u32 k ++ r) = f k r := bind_some (Reads.u32 k hk r)

theorem rd {d : Dec α} {e : α → Bytes} {P : α → Prop} {f : α → Dec β} (h : Reads d e P) {a : α}
    (ha : P a) (r : Bytes) : bind d f (e a ++ r) = f a r := bind_some (h a ha r)

theorem rf {f : F64 → Dec β} (x : F64) (r : Bytes) : bind f64 f (Enc.f64 x ++ r) = f x r :=
  rd Reads.f64 trivial r

theorem Reads.solverType (f : Feat) : Reads (solverType f) (Enc.solverType f) (TypeOk f) := by
  intro t ht r
  unfold Dec.solverType Enc.solverType
  cases ha : f.argmin
  · have h1 := ht ha
    subst h1
    simp only [Enc.solverIndex, ha, Bool.false_eq_true, if_false]
    rw [u32_lit (by decide)]
    rfl
  · cases t <;> simp only [Enc.solverIndex, ha, if_true] <;> rw [u32_lit (by decide)] <;> rfl

theorem Reads.lineSearch : Reads lineSearch Enc.lineSearch LineOk := by
  intro l hl r
  unfold Dec.lineSearch
  cases l with
  | moreThuente c1 c2 w b =>
    simp only [Enc.lineSearch, List.append_assoc]
    rw [u32_lit (by decide)]
    show Dec.bind Dec.f64 _ _ = _
    rw [rf, rf, rf, rd Reads.f64s hl, pure_apply]
  | hagerZhang a1 a2 a3 a4 a5 a6 b =>
    simp only [Enc.lineSearch, List.append_assoc]
    rw [u32_lit (by decide)]
    show Dec.bind Dec.f64 _ _ = _
    rw [rf, rf, rf, rf, rf, rf, rd Reads.f64s hl, pure_apply]

theorem Reads.radiusMethod : Reads radiusMethod Enc.radiusMethod (fun _ => True) := by
  intro m _ r
  unfold Dec.radiusMethod
  cases m <;> simp only [Enc.radiusMethod] <;> rw [u32_lit (by decide)] <;> rfl

theorem Reads.cobyla {it : Nat} {st fr fa xr : F64} {xa : List F64} (h1 : it < 2 ^ 64) (h2 : Short xa)
    (r : Bytes) :
    cobyla (Enc.u64 it ++ (Enc.f64 st ++ (Enc.f64 fr ++ (Enc.f64 fa ++ (Enc.f64 xr ++
      (Enc.list Enc.f64 xa ++ r)))))) = some (.cobyla it st fr fa xr xa, r) := by
  unfold Dec.cobyla
  rw [rd Reads.u64 h1, rf, rf, rf, rf, rd Reads.vec h2, pure_apply]

theorem Reads.solverConfig (f : Feat) :
    Reads (solverConfig f) (Enc.solverConfig f) (ConfigOk f) := by
  intro c hc r
  unfold Dec.solverConfig
  cases c with
  | lbfgs it tg tc h l1 ls =>
    obtain ⟨ha, h1, h2, h3⟩ := hc
    simp only [Enc.solverConfig, List.append_assoc]
    rw [u32_lit (by decide), if_pos ha]
    show Dec.bind Dec.u64 _ _ = _
    rw [rd Reads.u64 h1, rf, rf, rd Reads.u64 h2, rd (Reads.opt Reads.f64) trivial,
      rd Reads.lineSearch h3, pure_apply]
  | nelderMead sd tol it a g r' s =>
    obtain ⟨ha, h1⟩ := hc
    simp only [Enc.solverConfig, List.append_assoc]
    rw [u32_lit (by decide), if_pos ha]
    show Dec.bind Dec.f64 _ _ = _
    rw [rf, rf, rd Reads.u64 h1, rf, rf, rf, rf, pure_apply]
  | steepestDescent it ls =>
    obtain ⟨ha, h1, h3⟩ := hc
    simp only [Enc.solverConfig, List.append_assoc]
    rw [u32_lit (by decide), if_pos ha]
    show Dec.bind Dec.u64 _ _ = _
    rw [rd Reads.u64 h1, rd Reads.lineSearch h3, pure_apply]
  | trustRegion m it a b c =>
    obtain ⟨ha, h1⟩ := hc
    simp only [Enc.solverConfig, List.append_assoc]
    rw [u32_lit (by decide), if_pos ha]
    show Dec.bind Dec.radiusMethod _ _ = _
    rw [rd Reads.radiusMethod trivial, rd Reads.u64 h1, rf, rf, rf, pure_apply]
  | newtonCG it a b ls =>
    obtain ⟨ha, h1, h3⟩ := hc
    simp only [Enc.solverConfig, List.append_assoc]
    rw [u32_lit (by decide), if_pos ha]
    show Dec.bind Dec.u64 _ _ = _
    rw [rd Reads.u64 h1, rf, rf, rd Reads.lineSearch h3, pure_apply]
  | cobyla it st fr fa xr xa =>
    obtain ⟨h1, h2⟩ := hc
    simp only [Enc.solverConfig, List.append_assoc]
    cases ha : f.argmin
    · simp only [Bool.false_eq_true, if_false]
      rw [u32_lit (by decide)]
      exact Reads.cobyla h1 h2 r
    · simp only [if_true]
      rw [u32_lit (by decide)]
      exact Reads.cobyla h1 h2 r

theorem Reads.params (f : Feat) : Reads (params f) (Enc.params f) (ParamsOk f) := by
  rintro p ⟨h1, h2, h3, h4, h5, h6⟩ r
  unfold Dec.params
  simp only [Enc.params, List.append_assoc]
  rw [rd Reads.u64 h1, rd Reads.u64 h2, rd Reads.u64 h3, rf, rf, rd (Reads.solverType f) h5,
    rd (Reads.solverConfig f) h6, rd Reads.u64 h4, pure_apply]

theorem Reads.sol : Reads sol Enc.sol SolOk := by
  intro s hs r
  unfold Dec.sol
  simp only [Enc.sol, List.append_assoc]
  rw [rd Reads.f64s hs, rf, pure_apply]

theorem Reads.rayon (f : Feat) : Reads (rayon f) Enc.rayon
    (fun o => o.isSome = f.rayon ∧ ∀ b p, o = some (some b, p) → b < 2 ^ 64) := by
  intro o ho r
  unfold Dec.rayon
  cases o with
  | none =>
    have h : f.rayon = false := ho.1.symm
    simp only [h, Bool.false_eq_true, if_false]
    rfl
  | some q =>
    obtain ⟨b, p⟩ := q
    have h : f.rayon = true := ho.1.symm
    simp only [h, if_true, Enc.rayon, List.append_assoc]
    rw [rd (Reads.option Reads.u64) (fun a hb => ho.2 a p (by rw [hb])), rd Reads.bool trivial,
      pure_apply]

theorem Reads.ckpt (f : Feat) : Reads (ckpt f) (Enc.ckpt f) (CkptOk f) := by
  intro c hc r
  unfold Dec.ckpt
  simp only [Enc.ckpt, List.append_assoc]
  rw [rd (Reads.params f) hc.params, rd Reads.u64 hc.iter, rf,
    rd (Reads.option (Reads.array1 Reads.sol)) hc.set, rd (Reads.list Reads.vec) hc.ref,
    rd Reads.u64 hc.unchanged, rf, rd (Reads.list Reads.sol) hc.dist, rd Reads.u64 hc.seed,
    rd (Reads.opt Reads.f64) trivial, rd Reads.bool trivial, rd (Reads.rayon f) ⟨hc.rayon, hc.batch⟩, rf,
    rf, rd Reads.str hc.stamp, pure_apply]

end Dec
end GS
