/- The checkpoint format is canonical: whatever decodes is an encoding of the decoded value. -/
import Verif.Lemmas.Bincode

namespace GS
namespace Dec
variable {α β : Type}

/-- Whatever decodes is the encoding of a representable value, followed by the unread bytes. -/
def Exact (d : Dec α) (e : α → Bytes) (P : α → Prop) : Prop :=
  ∀ b a r, d b = some (a, r) → P a ∧ b = e a ++ r

theorem bind_inv {d : Dec α} {f : α → Dec β} {b r : Bytes} {c : β} (h : bind d f b = some (c, r)) :
    ∃ a r', d b = some (a, r') ∧ f a r' = some (c, r) := by
  unfold bind at h
  cases hd : d b with
  | none => rw [hd] at h; cases h
  | some p => rw [hd] at h; exact ⟨p.1, p.2, rfl, h⟩

/-- One step of an inversion: the first field of a `bind` chain. -/
theorem inv {d : Dec α} {e : α → Bytes} {P : α → Prop} (he : Exact d e P) {f : α → Dec β}
    {b r : Bytes} {c : β} (h : bind d f b = some (c, r)) :
    ∃ a r', P a ∧ b = e a ++ r' ∧ f a r' = some (c, r) := by
  obtain ⟨a, r', h1, h2⟩ := bind_inv h
  exact ⟨a, r', (he _ _ _ h1).1, (he _ _ _ h1).2, h2⟩

theorem pure_inv {a c : α} {b r : Bytes} (h : pure a b = some (c, r)) : a = c ∧ b = r := by
  simpa [pure] using h

theorem Exact.byte : Exact byte (fun b => [b]) (fun _ => True) := by
  intro b a r h
  cases b with
  | nil => cases h
  | cons x t =>
    simp only [Dec.byte, Option.some.injEq, Prod.mk.injEq] at h
    exact ⟨trivial, by rw [h.1, h.2]; rfl⟩

theorem Exact.le (k : Nat) : Exact (le k) (Enc.le k) (fun x => x < 256 ^ k) := by
  induction k with
  | zero =>
    intro b a r h
    obtain ⟨h1, h2⟩ := pure_inv h
    exact ⟨by rw [← h1]; decide, by rw [h2]; rfl⟩
  | succ k ih =>
    intro b a r h
    obtain ⟨x, r1, -, h1, h⟩ := inv Exact.byte h
    obtain ⟨y, r2, hy, h2, h⟩ := inv ih h
    obtain ⟨h3, h4⟩ := pure_inv h
    have hx : x.toNat < 256 := x.toNat_lt
    refine ⟨?_, ?_⟩
    · rw [← h3, Nat.pow_succ]
      have h5 : y + 1 ≤ 256 ^ k := hy
      have h6 : 256 * (y + 1) ≤ 256 * 256 ^ k := Nat.mul_le_mul_left _ h5
      omega
    · have h5 : a % 256 = x.toNat := by omega
      have h6 : a / 256 = y := by omega
      rw [h1, h2, h4, Enc.le, h5, h6]
      simp

theorem Exact.u64 : Exact u64 Enc.u64 (fun x => x < 2 ^ 64) := fun b a r h => by
  have h1 := Exact.le 8 b a r h
  have h2 : (256 : Nat) ^ 8 = 2 ^ 64 := by decide
  rw [h2] at h1
  exact h1

theorem Exact.u32 : Exact u32 Enc.u32 (fun x => x < 2 ^ 32) := fun b a r h => by
  have h1 := Exact.le 4 b a r h
  have h2 : (256 : Nat) ^ 4 = 2 ^ 32 := by decide
  rw [h2] at h1
  exact h1

theorem bits_ofBits {x : Nat} (h : x < 2 ^ 64) : Enc.bits (ofBits x) = x := by
  unfold Enc.bits ofBits
  by_cases hx : 2 ^ 63 ≤ x
  · simp only [hx, decide_true, if_true]; omega
  · simp only [hx, decide_false, Bool.false_eq_true, if_false]; omega

theorem Exact.f64 : Exact f64 Enc.f64 (fun _ => True) := fun b a r h => by
  obtain ⟨x, r1, hx, h1, h⟩ := inv Exact.u64 h
  obtain ⟨h2, h3⟩ := pure_inv h
  refine ⟨trivial, ?_⟩
  rw [h1, h3, ← h2, Enc.f64, bits_ofBits hx]

theorem Exact.bool : Exact bool Enc.bool (fun _ => True) := fun b a r h => by
  obtain ⟨x, r1, -, h1, h⟩ := inv Exact.byte h
  refine ⟨trivial, ?_⟩
  by_cases h0 : x = 0
  · rw [if_pos h0] at h
    obtain ⟨h2, h3⟩ := pure_inv h
    rw [h1, h3, ← h2, h0]; rfl
  · rw [if_neg h0] at h
    by_cases h0' : x = 1
    · rw [if_pos h0'] at h
      obtain ⟨h2, h3⟩ := pure_inv h
      rw [h1, h3, ← h2, h0']; rfl
    · rw [if_neg h0'] at h; cases h

theorem Exact.option {d : Dec α} {e : α → Bytes} {P : α → Prop} (hd : Exact d e P) :
    Exact (option d) (Enc.option e) (fun o => ∀ a, o = some a → P a) := fun b a r h => by
  obtain ⟨x, r1, -, h1, h⟩ := inv Exact.byte h
  by_cases h0 : x = 0
  · rw [if_pos h0] at h
    obtain ⟨h2, h3⟩ := pure_inv h
    rw [h1, h3, ← h2, h0]
    exact ⟨(fun a ha => by cases ha), rfl⟩
  · rw [if_neg h0] at h
    by_cases h0' : x = 1
    · rw [if_pos h0'] at h
      obtain ⟨y, r2, hy, h4, h⟩ := inv hd h
      obtain ⟨h2, h3⟩ := pure_inv h
      rw [h1, h4, h3, ← h2, h0']
      exact ⟨(fun a ha => by cases ha; exact hy), rfl⟩
    · rw [if_neg h0'] at h; cases h

theorem Exact.rep {d : Dec α} {e : α → Bytes} {P : α → Prop} (hd : Exact d e P) (k : Nat) :
    ∀ b l r, rep d k b = some (l, r) → l.length = k ∧ (∀ a ∈ l, P a) ∧ b = Enc.seq e l ++ r := by
  induction k with
  | zero =>
    intro b l r h
    obtain ⟨h1, h2⟩ := pure_inv h
    rw [← h1, h2]
    exact ⟨rfl, (fun _ h => by cases h), rfl⟩
  | succ k ih =>
    intro b l r h
    obtain ⟨a, r1, ha, h1, h⟩ := inv hd h
    obtain ⟨l', r2, h2, h⟩ := bind_inv h
    obtain ⟨h3, h4, h5⟩ := ih _ _ _ h2
    obtain ⟨h6, h7⟩ := pure_inv h
    rw [← h6, h1, h5, h7]
    refine ⟨by simp [h3], ?_, by simp [Enc.seq]⟩
    intro x hx
    rcases List.mem_cons.1 hx with h8 | h8
    · rw [h8]; exact ha
    · exact h4 x h8

theorem Exact.list {d : Dec α} {e : α → Bytes} {P : α → Prop} (hd : Exact d e P) :
    Exact (list d) (Enc.list e) (fun l => l.length < 2 ^ 64 ∧ ∀ a ∈ l, P a) := fun b l r h => by
  obtain ⟨k, r1, hk, h1, h⟩ := inv Exact.u64 h
  obtain ⟨h2, h3, h4⟩ := Exact.rep hd k _ _ _ h
  refine ⟨⟨by rw [h2]; exact hk, h3⟩, ?_⟩
  rw [h1, h4, Enc.list, h2, List.append_assoc]

theorem toByteArray_of_fromUTF8? {b : ByteArray} {s : String} (h : String.fromUTF8? b = some s) :
    s.toByteArray = b := by
  unfold String.fromUTF8? at h
  split at h
  · simp only [Option.some.injEq] at h
    rw [← h]; rfl
  · cases h

theorem seq_byte (l : Bytes) : Enc.seq (fun b => [b]) l = l := by
  induction l with
  | nil => rfl
  | cons x t ih => simp only [Enc.seq, List.flatMap_cons] at ih ⊢; rw [ih]; rfl

theorem Exact.str : Exact str Enc.str (fun s => s.toByteArray.data.toList.length < 2 ^ 64) :=
  fun b s r h => by
    obtain ⟨k, r1, hk, h1, h⟩ := inv Exact.u64 h
    obtain ⟨l, r2, h2, h⟩ := bind_inv h
    obtain ⟨h3, -, h4⟩ := Exact.rep Exact.byte k _ _ _ h2
    cases hs : String.fromUTF8? ⟨l.toArray⟩ with
    | none => rw [hs] at h; cases h
    | some s' =>
      rw [hs] at h
      obtain ⟨h5, h6⟩ := pure_inv h
      subst h5
      have h7 := toByteArray_of_fromUTF8? hs
      have h8 : s'.toByteArray.data.toList = l := by rw [h7]
      refine ⟨(by show s'.toByteArray.data.toList.length < 2 ^ 64; rw [h8, h3]; exact hk), ?_⟩
      unfold Enc.str Enc.list
      rw [h8, h1, h4, h3, h6, List.append_assoc]

theorem Exact.array1 {d : Dec α} {e : α → Bytes} {P : α → Prop} (hd : Exact d e P) :
    Exact (array1 d) (Enc.array1 e) (fun l => l.length < 2 ^ 64 ∧ ∀ a ∈ l, P a) := fun b l r h => by
  obtain ⟨x, r1, -, h1, h⟩ := inv Exact.byte h
  by_cases h0 : x = 1
  · rw [if_pos h0] at h
    obtain ⟨k, r2, -, h2, h⟩ := inv Exact.u64 h
    obtain ⟨l', r3, hl, h3, h⟩ := inv (Exact.list hd) h
    by_cases h4 : l'.length = k
    · rw [if_pos h4] at h
      obtain ⟨h5, h6⟩ := pure_inv h
      subst h5
      refine ⟨hl, ?_⟩
      rw [h1, h2, h3, h0, h6, ← h4, Enc.array1]
      simp
    · rw [if_neg h4] at h; cases h
  · rw [if_neg h0] at h; cases h

theorem Exact.f64s : Exact (Dec.array1 Dec.f64) (Enc.array1 Enc.f64) Short := fun b l r h =>
  ⟨(Exact.array1 Exact.f64 b l r h).1.1, (Exact.array1 Exact.f64 b l r h).2⟩

theorem Exact.vec : Exact (Dec.list Dec.f64) (Enc.list Enc.f64) Short := fun b l r h =>
  ⟨(Exact.list Exact.f64 b l r h).1.1, (Exact.list Exact.f64 b l r h).2⟩

theorem Exact.solverType (f : Feat) : Exact (solverType f) (Enc.solverType f) (TypeOk f) := by
  intro b t r h
  obtain ⟨i, r1, -, h1, h⟩ := inv Exact.u32 h
  cases hf : f.argmin
  · rw [hf, if_neg (by decide)] at h
    split at h
    · obtain ⟨h2, h3⟩ := pure_inv h
      subst h2 h3
      exact ⟨fun _ => rfl, by rw [h1, Enc.solverType, Enc.solverIndex, hf]; rfl⟩
    · cases h
  · rw [hf, if_pos rfl] at h
    split at h
    case h_7 => cases h
    all_goals
      obtain ⟨h2, h3⟩ := pure_inv h
      subst h2 h3
      refine ⟨(fun hc => absurd (hf.symm.trans hc) (by decide)), ?_⟩
      rw [h1]
      simp only [Enc.solverType, Enc.solverIndex, hf, if_true]

theorem Exact.lineSearch : Exact lineSearch Enc.lineSearch LineOk := by
  intro b t r h
  obtain ⟨i, r0, -, h0, h⟩ := inv Exact.u32 h
  split at h
  · obtain ⟨_, r1, -, h1, h⟩ := inv Exact.f64 h
    obtain ⟨_, r2, -, h2, h⟩ := inv Exact.f64 h
    obtain ⟨_, r3, -, h3, h⟩ := inv Exact.f64 h
    obtain ⟨_, r4, h4', h4, h⟩ := inv Exact.f64s h
    obtain ⟨h5, h6⟩ := pure_inv h
    subst h5 h6
    exact ⟨h4', by simp only [h0, h1, h2, h3, h4, Enc.lineSearch, List.append_assoc]⟩
  · obtain ⟨_, r1, -, h1, h⟩ := inv Exact.f64 h
    obtain ⟨_, r2, -, h2, h⟩ := inv Exact.f64 h
    obtain ⟨_, r3, -, h3, h⟩ := inv Exact.f64 h
    obtain ⟨_, r4, -, h4, h⟩ := inv Exact.f64 h
    obtain ⟨_, r5, -, h5, h⟩ := inv Exact.f64 h
    obtain ⟨_, r6, -, h6, h⟩ := inv Exact.f64 h
    obtain ⟨_, r7, h7', h7, h⟩ := inv Exact.f64s h
    obtain ⟨h8, h9⟩ := pure_inv h
    subst h8 h9
    exact ⟨h7', by simp only [h0, h1, h2, h3, h4, h5, h6, h7, Enc.lineSearch, List.append_assoc]⟩
  · cases h

theorem Exact.radiusMethod : Exact radiusMethod Enc.radiusMethod (fun _ => True) := by
  intro b t r h
  obtain ⟨i, r0, -, h0, h⟩ := inv Exact.u32 h
  split at h
  case h_3 => cases h
  all_goals
    obtain ⟨h8, h9⟩ := pure_inv h
    subst h8 h9
    exact ⟨trivial, h0⟩

theorem cobyla_inv {b r : Bytes} {c : SolverConfig} (h : cobyla b = some (c, r)) :
    ∃ it st fr fa xr xa, c = .cobyla it st fr fa xr xa ∧ it < 2 ^ 64 ∧ Short xa ∧
      b = Enc.u64 it ++ (Enc.f64 st ++ (Enc.f64 fr ++ (Enc.f64 fa ++ (Enc.f64 xr ++
        (Enc.list Enc.f64 xa ++ r))))) := by
  obtain ⟨a1, r1, h1', h1, h⟩ := inv Exact.u64 h
  obtain ⟨a2, r2, -, h2, h⟩ := inv Exact.f64 h
  obtain ⟨a3, r3, -, h3, h⟩ := inv Exact.f64 h
  obtain ⟨a4, r4, -, h4, h⟩ := inv Exact.f64 h
  obtain ⟨a5, r5, -, h5, h⟩ := inv Exact.f64 h
  obtain ⟨a6, r6, h6', h6, h⟩ := inv Exact.vec h
  obtain ⟨h8, h9⟩ := pure_inv h
  subst h8 h9
  exact ⟨a1, a2, a3, a4, a5, a6, rfl, h1', h6', by rw [h1, h2, h3, h4, h5, h6]⟩

theorem Exact.solverConfig (f : Feat) :
    Exact (solverConfig f) (Enc.solverConfig f) (ConfigOk f) := by
  intro b t r h
  obtain ⟨i, r0, -, h0, h⟩ := inv Exact.u32 h
  cases hf : f.argmin
  · rw [hf, if_neg (by decide)] at h
    split at h
    · obtain ⟨a1, a2, a3, a4, a5, a6, h1, h2, h3, h4⟩ := cobyla_inv h
      subst h1
      refine ⟨⟨h2, h3⟩, ?_⟩
      simp only [h0, h4, Enc.solverConfig, hf, List.append_assoc, Bool.false_eq_true, if_false]
    · cases h
  · rw [hf, if_pos rfl] at h
    split at h
    · obtain ⟨a1, r1, h1', h1, h⟩ := inv Exact.u64 h
      obtain ⟨a2, r2, -, h2, h⟩ := inv Exact.f64 h
      obtain ⟨a3, r3, -, h3, h⟩ := inv Exact.f64 h
      obtain ⟨a4, r4, h4', h4, h⟩ := inv Exact.u64 h
      obtain ⟨a5, r5, -, h5, h⟩ := inv (Exact.option Exact.f64) h
      obtain ⟨a6, r6, h6', h6, h⟩ := inv Exact.lineSearch h
      obtain ⟨h8, h9⟩ := pure_inv h
      subst h8 h9
      exact ⟨⟨hf, h1', h4', h6'⟩,
        by simp only [h0, h1, h2, h3, h4, h5, h6, Enc.solverConfig, List.append_assoc]⟩
    · obtain ⟨a1, r1, -, h1, h⟩ := inv Exact.f64 h
      obtain ⟨a2, r2, -, h2, h⟩ := inv Exact.f64 h
      obtain ⟨a3, r3, h3', h3, h⟩ := inv Exact.u64 h
      obtain ⟨a4, r4, -, h4, h⟩ := inv Exact.f64 h
      obtain ⟨a5, r5, -, h5, h⟩ := inv Exact.f64 h
      obtain ⟨a6, r6, -, h6, h⟩ := inv Exact.f64 h
      obtain ⟨a7, r7, -, h7, h⟩ := inv Exact.f64 h
      obtain ⟨h8, h9⟩ := pure_inv h
      subst h8 h9
      exact ⟨⟨hf, h3'⟩,
        by simp only [h0, h1, h2, h3, h4, h5, h6, h7, Enc.solverConfig, List.append_assoc]⟩
    · obtain ⟨a1, r1, h1', h1, h⟩ := inv Exact.u64 h
      obtain ⟨a2, r2, h2', h2, h⟩ := inv Exact.lineSearch h
      obtain ⟨h8, h9⟩ := pure_inv h
      subst h8 h9
      exact ⟨⟨hf, h1', h2'⟩, by simp only [h0, h1, h2, Enc.solverConfig, List.append_assoc]⟩
    · obtain ⟨a1, r1, -, h1, h⟩ := inv Exact.radiusMethod h
      obtain ⟨a2, r2, h2', h2, h⟩ := inv Exact.u64 h
      obtain ⟨a3, r3, -, h3, h⟩ := inv Exact.f64 h
      obtain ⟨a4, r4, -, h4, h⟩ := inv Exact.f64 h
      obtain ⟨a5, r5, -, h5, h⟩ := inv Exact.f64 h
      obtain ⟨h8, h9⟩ := pure_inv h
      subst h8 h9
      exact ⟨⟨hf, h2'⟩, by simp only [h0, h1, h2, h3, h4, h5, Enc.solverConfig, List.append_assoc]⟩
    · obtain ⟨a1, r1, h1', h1, h⟩ := inv Exact.u64 h
      obtain ⟨a3, r3, -, h3, h⟩ := inv Exact.f64 h
      obtain ⟨a4, r4, -, h4, h⟩ := inv Exact.f64 h
      obtain ⟨a2, r2, h2', h2, h⟩ := inv Exact.lineSearch h
      obtain ⟨h8, h9⟩ := pure_inv h
      subst h8 h9
      exact ⟨⟨hf, h1', h2'⟩,
        by simp only [h0, h1, h2, h3, h4, Enc.solverConfig, List.append_assoc]⟩
    · obtain ⟨a1, a2, a3, a4, a5, a6, h1, h2, h3, h4⟩ := cobyla_inv h
      subst h1
      refine ⟨⟨h2, h3⟩, ?_⟩
      simp only [h0, h4, Enc.solverConfig, hf, List.append_assoc, if_true]
    · cases h

theorem Exact.params (f : Feat) : Exact (params f) (Enc.params f) (ParamsOk f) := by
  intro b t r h
  obtain ⟨a1, r1, h1', h1, h⟩ := inv Exact.u64 h
  obtain ⟨a2, r2, h2', h2, h⟩ := inv Exact.u64 h
  obtain ⟨a3, r3, h3', h3, h⟩ := inv Exact.u64 h
  obtain ⟨a4, r4, -, h4, h⟩ := inv Exact.f64 h
  obtain ⟨a5, r5, -, h5, h⟩ := inv Exact.f64 h
  obtain ⟨a6, r6, h6', h6, h⟩ := inv (Exact.solverType f) h
  obtain ⟨a7, r7, h7', h7, h⟩ := inv (Exact.solverConfig f) h
  obtain ⟨a8, r8, h8', h8, h⟩ := inv Exact.u64 h
  obtain ⟨h9, h10⟩ := pure_inv h
  subst h9 h10
  exact ⟨⟨h1', h2', h3', h8', h6', h7'⟩,
    by simp only [h1, h2, h3, h4, h5, h6, h7, h8, Enc.params, List.append_assoc]⟩

theorem Exact.sol : Exact sol Enc.sol SolOk := by
  intro b t r h
  obtain ⟨a1, r1, h1', h1, h⟩ := inv Exact.f64s h
  obtain ⟨a2, r2, -, h2, h⟩ := inv Exact.f64 h
  obtain ⟨h9, h10⟩ := pure_inv h
  subst h9 h10
  exact ⟨h1', by simp only [h1, h2, Enc.sol, List.append_assoc]⟩

theorem Exact.rayon (f : Feat) : Exact (rayon f) Enc.rayon
    (fun o => o.isSome = f.rayon ∧ ∀ b p, o = some (some b, p) → b < 2 ^ 64) := by
  intro b t r h
  unfold Dec.rayon at h
  cases hf : f.rayon
  · rw [hf, if_neg (by decide)] at h
    obtain ⟨h9, h10⟩ := pure_inv h
    subst h9 h10
    exact ⟨⟨rfl, (fun _ _ h => by cases h)⟩, rfl⟩
  · rw [hf, if_pos rfl] at h
    obtain ⟨a1, r1, h1', h1, h⟩ := inv (Exact.option Exact.u64) h
    obtain ⟨a2, r2, -, h2, h⟩ := inv Exact.bool h
    obtain ⟨h9, h10⟩ := pure_inv h
    subst h9 h10
    exact ⟨⟨rfl, (fun b p h => by cases h; exact h1' b rfl)⟩,
      by simp only [h1, h2, Enc.rayon, List.append_assoc]⟩

theorem Exact.ckpt (f : Feat) : Exact (ckpt f) (Enc.ckpt f) (CkptOk f) := by
  intro b t r h
  obtain ⟨a1, r1, g1, h1, h⟩ := inv (Exact.params f) h
  obtain ⟨a2, r2, g2, h2, h⟩ := inv Exact.u64 h
  obtain ⟨a3, r3, -, h3, h⟩ := inv Exact.f64 h
  obtain ⟨a4, r4, g4, h4, h⟩ := inv (Exact.option (Exact.array1 Exact.sol)) h
  obtain ⟨a5, r5, g5, h5, h⟩ := inv (Exact.list Exact.vec) h
  obtain ⟨a6, r6, g6, h6, h⟩ := inv Exact.u64 h
  obtain ⟨a7, r7, -, h7, h⟩ := inv Exact.f64 h
  obtain ⟨a8, r8, g8, h8, h⟩ := inv (Exact.list Exact.sol) h
  obtain ⟨a9, r9, g9, h9, h⟩ := inv Exact.u64 h
  obtain ⟨a10, r10, -, h10, h⟩ := inv (Exact.option Exact.f64) h
  obtain ⟨a11, r11, -, h11, h⟩ := inv Exact.bool h
  obtain ⟨a12, r12, g12, h12, h⟩ := inv (Exact.rayon f) h
  obtain ⟨a13, r13, -, h13, h⟩ := inv Exact.f64 h
  obtain ⟨a14, r14, -, h14, h⟩ := inv Exact.f64 h
  obtain ⟨a15, r15, g15, h15, h⟩ := inv Exact.str h
  obtain ⟨h16, h17⟩ := pure_inv h
  subst h16 h17
  exact ⟨⟨g1, g2, g4, g5, g6, g8, g9, g12.1, g12.2, g15⟩,
    by simp only [h1, h2, h3, h4, h5, h6, h7, h8, h9, h10, h11, h12, h13, h14, h15, Enc.ckpt,
      List.append_assoc]⟩

end Dec
end GS
