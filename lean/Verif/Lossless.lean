import Verif.Refine
import Verif.RunAt
import Verif.Enum
import Verif.TextProofs
/-
`Lossless i r r' j`: two runs, of `r` on one stream and of `r'` on another, that return the same value have consumed the same
bits. `i` and `j` are the bit offsets within a byte before and after. A decoder `r` loses no information if
`Lossless 0 r r 0`; different readers `r`, `r'` occur where the decoder has looked at something (the end of the stream) that may
differ between the streams.
-/

namespace Dmr

/-- See the head of this file. -/
def Lossless (i : Nat) (r r' : Rd α) (j : Nat) : Prop :=
  ∀ (b b' : Bytes) (p p' : Nat) (x : α) (s s' : Stream), p ≤ 8 * b.length → p' ≤ 8 * b'.length → p % 8 = i → p' % 8 = i →
    Rd.eval r (Stream.at b p) = .ok (x, s) → Rd.eval r' (Stream.at b' p') = .ok (x, s') →
    ∃ n, p + n ≤ 8 * b.length ∧ p' + n ≤ 8 * b'.length ∧ s = Stream.at b (p + n) ∧ s' = Stream.at b' (p' + n) ∧
      (p + n) % 8 = j ∧ bitsAt b p n = bitsAt b' p' n

/-- Every value the reader can return satisfies `P`. -/
def Returns (r : Rd α) (P : α → Prop) : Prop := ∀ s x s', Rd.eval r s = .ok (x, s') → P x

theorem Returns.pure {a : α} {P : α → Prop} (h : P a) : Returns (Pure.pure a : Rd α) P := by
  intro s x s' e; cases e; exact h

theorem Returns.throw {e : PyErr} {P : α → Prop} : Returns (Rd.throw e : Rd α) P := by
  intro s x s' e; cases e

theorem Returns.bind {r : Rd α} {k : α → Rd β} {P : β → Prop} (h : ∀ a, Returns (k a) P) : Returns (r >>= k) P := by
  intro s x s' e
  rw [eval_bind] at e
  rcases he : Rd.eval r s with _ | ⟨a, s1⟩
  · rw [he] at e; cases e
  · rw [he] at e; exact h a s1 x s' e

theorem Returns.ite {c : Prop} [Decidable c] {r r' : Rd α} {P : α → Prop} (h : Returns r P) (h' : Returns r' P) :
    Returns (if c then r else r') P := by
  split
  · exact h
  · exact h'

namespace Lossless

theorem pure {i j : Nat} {a a' : α} (h : i = j) : Lossless i (Pure.pure a : Rd α) (Pure.pure a') j := by
  intro b b' p p' x s s' hp hp' hi hi' e e'
  cases e; cases e'
  exact ⟨0, by omega, by omega, rfl, rfl, by omega, by rw [bitsAt_zero, bitsAt_zero]⟩

theorem throw {i j : Nat} {e : PyErr} {r : Rd α} : Lossless i (Rd.throw e) r j := by
  intro b b' p p' x s s' hp hp' hi hi' e e'
  cases e

/-- The value of the first part can be seen from the result. -/
theorem bind {i j m : Nat} {r r' : Rd α} {k k' : α → Rd β} (proj : β → α) (hr : Lossless i r r' m)
    (hk : ∀ a, Lossless m (k a) (k' a) j) (h1 : ∀ a, Returns (k a) fun x => proj x = a)
    (h2 : ∀ a, Returns (k' a) fun x => proj x = a) : Lossless i (r >>= k) (r' >>= k') j := by
  intro b b' p p' x s s' hp hp' hi hi' e e'
  rw [eval_bind] at e e'
  rcases he : Rd.eval r (Stream.at b p) with _ | ⟨a, s1⟩
  · rw [he] at e; cases e
  rcases he' : Rd.eval r' (Stream.at b' p') with _ | ⟨a', s1'⟩
  · rw [he'] at e'; cases e'
  rw [he] at e
  rw [he'] at e'
  rw [andThen_ok] at e e'
  have ha : a = a' := (h1 a _ _ _ e).symm.trans (h2 a' _ _ _ e')
  subst ha
  obtain ⟨n, n1, n2, rfl, rfl, n5, n6⟩ := hr b b' p p' a s1 s1' hp hp' hi hi' he he'
  obtain ⟨l, l1, l2, rfl, rfl, l5, l6⟩ := hk a b b' (p + n) (p' + n) x s s' n1 n2 n5 (by omega) e e'
  exact ⟨n + l, by omega, by omega, by rw [Nat.add_assoc], by rw [Nat.add_assoc], by rw [← Nat.add_assoc]; exact l5,
    by rw [bitsAt_add b p n l l1, bitsAt_add b' p' n l l2, n6, l6]⟩

/-- The first part only looks at the stream. -/
theorem silent {i j : Nat} {r r' : Rd α} {k k' : α → Rd β}
    (hr : ∀ (b : Bytes) (p : Nat) (a : α) (s : Stream), p ≤ 8 * b.length → p % 8 = i →
      Rd.eval r (Stream.at b p) = .ok (a, s) → s = Stream.at b p)
    (hr' : ∀ (b : Bytes) (p : Nat) (a : α) (s : Stream), p ≤ 8 * b.length → p % 8 = i →
      Rd.eval r' (Stream.at b p) = .ok (a, s) → s = Stream.at b p)
    (hk : ∀ a a', Lossless i (k a) (k' a') j) : Lossless i (r >>= k) (r' >>= k') j := by
  intro b b' p p' x s s' hp hp' hi hi' e e'
  rw [eval_bind] at e e'
  rcases he : Rd.eval r (Stream.at b p) with _ | ⟨a, s1⟩
  · rw [he] at e; cases e
  rcases he' : Rd.eval r' (Stream.at b' p') with _ | ⟨a', s1'⟩
  · rw [he'] at e'; cases e'
  rw [he] at e
  rw [he'] at e'
  rw [andThen_ok] at e e'
  cases hr b p a s1 hp hi he
  cases hr' b' p' a' s1' hp' hi' he'
  exact hk a a' b b' p p' x s s' hp hp' hi hi' e e'

theorem isEof {i j : Nat} {k k' : Bool → Rd β} (hk : ∀ a a', Lossless i (k a) (k' a') j) :
    Lossless i (Dmr.isEof >>= k) (Dmr.isEof >>= k') j :=
  silent (fun b p a s hp _ h => by rw [eval_isEof b p hp] at h; cases h; rfl)
    (fun b p a s hp _ h => by rw [eval_isEof b p hp] at h; cases h; rfl) hk

theorem loopFuel {i j : Nat} {k k' : Nat → Rd β} (hk : ∀ a a', Lossless i (k a) (k' a') j) :
    Lossless i (Dmr.loopFuel >>= k) (Dmr.loopFuel >>= k') j :=
  silent (fun b p a s hp _ h => by rw [eval_loopFuel b p] at h; cases h; rfl)
    (fun b p a s hp _ h => by rw [eval_loopFuel b p] at h; cases h; rfl) hk

theorem align {i j : Nat} {k k' : Unit → Rd β} (hi : i = 0) (hk : Lossless i (k ()) (k' ()) j) :
    Lossless i (alignToByte >>= k) (alignToByte >>= k') j := by
  refine silent ?_ ?_ fun _ _ => hk
  all_goals
    intro b p a s hp h0 h
    rw [eval_alignToByte] at h
    cases h
    congr 1
    omega

theorem validate {γ : Type} [DecidableEq γ] {i j : Nat} {v e v' e' : γ} {path path' : String} {k k' : Unit → Rd β}
    (hk : Lossless i (k ()) (k' ()) j) : Lossless i (validateEq v e path >>= k) (validateEq v' e' path' >>= k') j := by
  refine silent ?_ ?_ fun _ _ => hk
  all_goals
    intro b p a s hp h0 h
    rw [eval_validateEq] at h
    split at h <;> cases h
    rfl

/-- A part whose value is used but not kept, and which is determined without reading. -/
theorem pureBind {i j : Nat} {a a' : α} {k k' : α → Rd β} (hk : Lossless i (k a) (k' a') j) :
    Lossless i ((Pure.pure a : Rd α) >>= k) ((Pure.pure a' : Rd α) >>= k') j := hk

theorem map {i j : Nat} {r r' : Rd α} {f : α → β} (hr : Lossless i r r' j) (hf : ∀ a a', f a = f a' → a = a') :
    Lossless i (r >>= fun a => (Pure.pure (f a) : Rd β)) (r' >>= fun a => (Pure.pure (f a) : Rd β)) j := by
  intro b b' p p' x s s' hp hp' hi hi' e e'
  rw [eval_bind] at e e'
  rcases he : Rd.eval r (Stream.at b p) with _ | ⟨a, s1⟩
  · rw [he] at e; cases e
  rcases he' : Rd.eval r' (Stream.at b' p') with _ | ⟨a', s1'⟩
  · rw [he'] at e'; cases e'
  rw [he, andThen_ok, eval_pure] at e
  rw [he', andThen_ok, eval_pure] at e'
  cases e
  injection e' with e'
  injection e' with e1 e2
  subst e2
  have := hf _ _ e1
  subst this
  exact hr b b' p p' a' s s1' hp hp' hi hi' he he'

theorem ite {c : Prop} [Decidable c] {i j : Nat} {r₁ r₂ r₁' r₂' : Rd α} (h : c → Lossless i r₁ r₁' j)
    (h' : ¬ c → Lossless i r₂ r₂' j) : Lossless i (if c then r₁ else r₂) (if c then r₁' else r₂') j := by
  by_cases hc : c
  · rw [if_pos hc, if_pos hc]; exact h hc
  · rw [if_neg hc, if_neg hc]; exact h' hc

theorem optionally {i : Nat} {c c' : Bool} {r r' : Rd α} (h : c = true → c' = true → Lossless i r r' i) :
    Lossless i (Dmr.optionally c r) (Dmr.optionally c' r') i := by
  intro b b' p p' x s s' hp hp' hi hi' e e'
  rw [eval_optionally] at e e'
  cases c <;> cases c'
  · cases e; cases e'
    exact ⟨0, by omega, by omega, rfl, rfl, by omega, by rw [bitsAt_zero, bitsAt_zero]⟩
  · cases e
    rw [if_pos rfl] at e'
    rcases he' : Rd.eval r' (Stream.at b' p') with _ | ⟨a', s1'⟩
    · rw [he'] at e'; cases e'
    · rw [he'] at e'; cases e'
  · cases e'
    rw [if_pos rfl] at e
    rcases he : Rd.eval r (Stream.at b p) with _ | ⟨a, s1⟩
    · rw [he] at e; cases e
    · rw [he] at e; cases e
  · rw [if_pos rfl] at e e'
    rcases he : Rd.eval r (Stream.at b p) with _ | ⟨a, s1⟩
    · rw [he] at e; cases e
    rcases he' : Rd.eval r' (Stream.at b' p') with _ | ⟨a', s1'⟩
    · rw [he'] at e'; cases e'
    rw [he] at e; rw [he'] at e'
    cases e; cases e'
    exact h rfl rfl b b' p p' a s s' hp hp' hi hi' he he'

theorem asEnum {E : Type} [PyEnum E] {i j : Nat} {r r' : Rd Nat} (h : Lossless i r r' j) :
    Lossless i (Dmr.asEnum E r) (Dmr.asEnum E r') j :=
  map h fun _ _ => resolveEnum_inj

theorem decodeWith {c : Bytes → Option PyStr} {i j : Nat} {r r' : Rd Bytes} (h : Lossless i r r' j)
    (hc : ∀ a a' s, c a = some s → c a' = some s → a = a') : Lossless i (Dmr.decodeWith c r) (Dmr.decodeWith c r') j := by
  intro b b' p p' x s s' hp hp' hi hi' e e'
  unfold Dmr.decodeWith at e e'
  rw [eval_bind] at e e'
  rcases he : Rd.eval r (Stream.at b p) with _ | ⟨a, s1⟩
  · rw [he] at e; cases e
  rcases he' : Rd.eval r' (Stream.at b' p') with _ | ⟨a', s1'⟩
  · rw [he'] at e'; cases e'
  rw [he, andThen_ok] at e
  rw [he', andThen_ok] at e'
  cases h1 : c a with
  | none => rw [h1] at e; cases e
  | some t =>
    cases h2 : c a' with
    | none => rw [h2] at e'; cases e'
    | some t' =>
      rw [h1] at e
      rw [h2] at e'
      cases e; cases e'
      have := hc a a' _ h1 h2
      subst this
      exact h b b' p p' a s s' hp hp' hi hi' he he'

theorem bits {i : Nat} (n : Nat) : Lossless i (readBitsIntBe n) (readBitsIntBe n) ((i + n) % 8) := by
  intro b b' p p' x s s' hp hp' hi hi' e e'
  rw [eval_readBitsIntBe _ _ _ hp] at e
  rw [eval_readBitsIntBe _ _ _ hp'] at e'
  split at e
  · split at e'
    · cases e
      injection e' with e'
      injection e' with e1 e2
      exact ⟨n, by omega, by omega, rfl, e2.symm, by omega, e1.symm⟩
    · cases e'
  · cases e

theorem flag {i : Nat} : Lossless i readFlag readFlag ((i + 1) % 8) := by
  intro b b' p p' x s s' hp hp' hi hi' e e'
  rw [eval_readFlag _ _ hp] at e
  rw [eval_readFlag _ _ hp'] at e'
  split at e
  · split at e'
    · cases e
      injection e' with e'
      injection e' with e1 e2
      refine ⟨1, by omega, by omega, rfl, e2.symm, by omega, ?_⟩
      have h1 := bitsAt_lt b p 1
      have h2 := bitsAt_lt b' p' 1
      unfold flagAt at e1
      by_cases hb : bitsAt b p 1 = 1
      · rw [hb] at e1
        have := beq_iff_eq.1 (e1.trans (by rfl))
        omega
      · have hn : (bitsAt b p 1 == 1) = false := by simpa using hb
        rw [hn] at e1
        have : bitsAt b' p' 1 ≠ 1 := by simpa using e1
        omega
    · cases e'
  · cases e

theorem bytes (n : Nat) : Lossless 0 (readBytes n) (readBytes n) 0 := by
  intro b b' p p' x s s' hp hp' hi hi' e e'
  rw [eval_readBytes _ _ _ hp] at e
  rw [eval_readBytes _ _ _ hp'] at e'
  obtain ⟨q, rfl⟩ : ∃ q, p = 8 * q := ⟨p / 8, by omega⟩
  obtain ⟨q', rfl⟩ : ∃ q, p' = 8 * q := ⟨p' / 8, by omega⟩
  rw [show (8 * q + 7) / 8 = q by omega] at e
  rw [show (8 * q' + 7) / 8 = q' by omega] at e'
  split at e
  · split at e'
    · rename_i h1 h2
      cases e
      injection e' with e'
      injection e' with e1 e2
      refine ⟨8 * n, by omega, by omega, by rw [Nat.mul_add], by rw [← e2, Nat.mul_add], by omega, ?_⟩
      rw [← beVal_slice b q n h1, ← beVal_slice b' q' n h2, e1]
    · cases e'
  · cases e

theorem bytesInt (n : Int) : Lossless 0 (readBytesInt n) (readBytesInt n) 0 := by
  by_cases hn : n < 0
  · intro b b' p p' x s s' hp hp' hi hi' e e'
    rw [eval_readBytesInt _ _ _ hp, if_pos hn] at e
    cases e
  · have := bytes n.toNat
    intro b b' p p' x s s' hp hp' hi hi' e e'
    rw [eval_readBytesInt _ _ _ hp, if_neg hn] at e
    rw [eval_readBytesInt _ _ _ hp', if_neg hn] at e'
    exact this b b' p p' x s s' hp hp' hi hi' (by rw [eval_readBytes _ _ _ hp]; exact e)
      (by rw [eval_readBytes _ _ _ hp']; exact e')

theorem full : Lossless 0 readBytesFull readBytesFull 0 := by
  intro b b' p p' x s s' hp hp' hi hi' e e'
  rw [eval_readBytesFull _ _ hp] at e
  rw [eval_readBytesFull _ _ hp'] at e'
  obtain ⟨q, rfl⟩ : ∃ q, p = 8 * q := ⟨p / 8, by omega⟩
  obtain ⟨q', rfl⟩ : ∃ q, p' = 8 * q := ⟨p' / 8, by omega⟩
  rw [show (8 * q + 7) / 8 = q by omega] at e
  rw [show (8 * q' + 7) / 8 = q' by omega] at e'
  cases e
  injection e' with e'
  injection e' with e1 e2
  have hl : b'.length - q' = b.length - q := by
    have := congrArg List.length e1
    simpa only [List.length_drop] using this
  refine ⟨8 * (b.length - q), by omega, by omega, by congr 1; omega, by rw [← e2]; congr 1; omega, by omega, ?_⟩
  rw [← beVal_slice b q _ (by omega), ← beVal_slice b' q' _ (by omega)]
  have t1 : slice b q (b.length - q) = b.drop q := by unfold slice; exact List.take_of_length_le (by simp)
  have t2 : slice b' q' (b.length - q) = b'.drop q' := by unfold slice; exact List.take_of_length_le (by simp [hl])
  rw [t1, t2, e1]

/-- A number made of the bytes read, from which the bytes can be recovered. -/
theorem ofBytes {n : Nat} {f : Bytes → α} (hf : ∀ a a' : Bytes, a.length = n → a'.length = n → f a = f a' → a = a') :
    Lossless 0 (readBytes n >>= fun a => (Pure.pure (f a) : Rd α)) (readBytes n >>= fun a => (Pure.pure (f a) : Rd α)) 0 := by
  intro b b' p p' x s s' hp hp' hi hi' e e'
  rw [eval_bind] at e e'
  rcases he : Rd.eval (readBytes n) (Stream.at b p) with _ | ⟨a, s1⟩
  · rw [he] at e; cases e
  rcases he' : Rd.eval (readBytes n) (Stream.at b' p') with _ | ⟨a', s1'⟩
  · rw [he'] at e'; cases e'
  rw [he, andThen_ok, eval_pure] at e
  rw [he', andThen_ok, eval_pure] at e'
  cases e
  injection e' with e'
  injection e' with e1 e2
  subst e2
  have hl : ∀ {c : Bytes} {o : Nat} {y : Bytes} {t : Stream}, o ≤ 8 * c.length →
      Rd.eval (readBytes n) (Stream.at c o) = .ok (y, t) → y.length = n := by
    intro c o y t ho h
    rw [eval_readBytes _ _ _ ho] at h
    split at h
    · cases h; rw [length_slice]; assumption
    · cases h
  have := hf _ _ (hl hp' he') (hl hp he) e1
  subst this
  exact bytes n b b' p p' a' s s1' hp hp' hi hi' he he'

theorem bytes_ext {a a' : Bytes} {n : Nat} (h : a.length = n) (h' : a'.length = n)
    (hu : ∀ i, i < n → u8 a i = u8 a' i) : a = a' := by
  refine List.ext_getElem (by omega) fun i h1 h2 => ?_
  have := hu i (by omega)
  unfold u8 at this
  rw [List.getD_eq_getElem?_getD, List.getD_eq_getElem?_getD, List.getElem?_eq_getElem h1, List.getElem?_eq_getElem h2] at this
  exact UInt8.toNat_inj.1 this

theorem u8_lt' (b : Bytes) (i : Nat) : u8 b i < 256 := by unfold u8; exact UInt8.toNat_lt _

theorem u1 : Lossless 0 readU1 readU1 0 :=
  ofBytes fun a a' h h' e => bytes_ext h h' fun i hi => by
    obtain rfl : i = 0 := by omega
    exact e

theorem u2be : Lossless 0 readU2be readU2be 0 :=
  ofBytes fun a a' h h' e => bytes_ext h h' fun i hi => by
    have := u8_lt' a 0; have := u8_lt' a 1; have := u8_lt' a' 0; have := u8_lt' a' 1
    simp only [u16be, Nat.zero_add] at e
    rcases (by omega : i = 0 ∨ i = 1) with rfl | rfl <;> omega

theorem u2le : Lossless 0 readU2le readU2le 0 :=
  ofBytes fun a a' h h' e => bytes_ext h h' fun i hi => by
    have := u8_lt' a 0; have := u8_lt' a 1; have := u8_lt' a' 0; have := u8_lt' a' 1
    simp only [u16le, Nat.zero_add] at e
    rcases (by omega : i = 0 ∨ i = 1) with rfl | rfl <;> omega

theorem s2be : Lossless 0 readS2be readS2be 0 :=
  ofBytes fun a a' h h' e => bytes_ext h h' fun i hi => by
    have := u8_lt' a 0; have := u8_lt' a 1; have := u8_lt' a' 0; have := u8_lt' a' 1
    simp only [s16be, u16be, Nat.zero_add] at e
    rcases (by omega : i = 0 ∨ i = 1) with rfl | rfl <;> (split at e <;> split at e <;> omega)

theorem u4be : Lossless 0 readU4be readU4be 0 :=
  ofBytes fun a a' h h' e => bytes_ext h h' fun i hi => by
    have := u8_lt' a 0; have := u8_lt' a 1; have := u8_lt' a' 0; have := u8_lt' a' 1
    have := u8_lt' a 2; have := u8_lt' a 3; have := u8_lt' a' 2; have := u8_lt' a' 3
    simp only [u32be, Nat.zero_add] at e
    rcases (by omega : i = 0 ∨ i = 1 ∨ i = 2 ∨ i = 3) with rfl | rfl | rfl | rfl <;> omega

theorem u4le : Lossless 0 readU4le readU4le 0 :=
  ofBytes fun a a' h h' e => bytes_ext h h' fun i hi => by
    have := u8_lt' a 0; have := u8_lt' a 1; have := u8_lt' a' 0; have := u8_lt' a' 1
    have := u8_lt' a 2; have := u8_lt' a 3; have := u8_lt' a' 2; have := u8_lt' a' 3
    simp only [u32le, Nat.zero_add] at e
    rcases (by omega : i = 0 ∨ i = 1 ∨ i = 2 ∨ i = 3) with rfl | rfl | rfl | rfl <;> omega

/-! ### Repetition -/

theorem head_tail {i m j : Nat} {r r' : Rd α} {k k' : Rd (List α)} (hr : Lossless i r r' m)
    (hk : Lossless m k k' j) :
    Lossless i (do let x ← r; let xs ← k; return x :: xs) (do let x ← r'; let xs ← k'; return x :: xs) j := by
  intro b b' p p' x s s' hp hp' hi hi' e e'
  rw [eval_bind] at e e'
  rcases he : Rd.eval r (Stream.at b p) with _ | ⟨a, s1⟩
  · rw [he] at e; cases e
  rcases he' : Rd.eval r' (Stream.at b' p') with _ | ⟨a', s1'⟩
  · rw [he'] at e'; cases e'
  rw [he, andThen_ok, eval_bind] at e
  rw [he', andThen_ok, eval_bind] at e'
  rcases hf : Rd.eval k s1 with _ | ⟨as, s2⟩
  · rw [hf] at e; cases e
  rcases hf' : Rd.eval k' s1' with _ | ⟨as', s2'⟩
  · rw [hf'] at e'; cases e'
  rw [hf, andThen_ok, eval_pure] at e
  rw [hf', andThen_ok, eval_pure] at e'
  cases e; cases e'
  obtain ⟨n, n1, n2, rfl, rfl, n5, n6⟩ := hr b b' p p' _ s1 s1' hp hp' hi hi' he he'
  obtain ⟨l, l1, l2, rfl, rfl, l5, l6⟩ := hk b b' (p + n) (p' + n) _ s s' n1 n2 n5 (by omega) hf hf'
  exact ⟨n + l, by omega, by omega, by rw [Nat.add_assoc], by rw [Nat.add_assoc], by rw [← Nat.add_assoc]; exact l5,
    by rw [bitsAt_add b p n l l1, bitsAt_add b' p' n l l2, n6, l6]⟩

theorem repeatN {i : Nat} {r : Rd α} (n : Nat) (h : Lossless i r r i) :
    Lossless i (Dmr.repeatN n r) (Dmr.repeatN n r) i := by
  induction n with
  | zero => exact pure rfl
  | succ n ih => exact head_tail h ih

/-- `r` moves the stream from one canonical state at bit offset `i` to another. -/
theorem swap {i j : Nat} {r r' : Rd α} (h : Lossless i r r' j) : Lossless i r' r j := by
  intro b b' p p' x s s' hp hp' hi hi' e e'
  obtain ⟨n, n1, n2, n3, n4, n5, n6⟩ := h b' b p' p x s' s hp' hp hi' hi e' e
  exact ⟨n, n2, n1, n4, n3, by omega, n6.symm⟩

theorem repeatUntil_ne_nil {r : Rd α} {stop : α → Rd Bool} : ∀ (fuel : Nat), Returns (Dmr.repeatUntil fuel r stop) (· ≠ [])
  | 0 => Returns.throw
  | fuel + 1 => by
    refine Returns.bind fun a => Returns.bind fun c => ?_
    cases c
    · exact Returns.bind fun as => Returns.pure (by simp)
    · exact Returns.pure (by simp)

theorem repeatUntil {i : Nat} {r r' : Rd α} {stop stop' : α → Rd Bool} (h : Lossless i r r' i)
    (hs : ∀ (x : α) (b : Bytes) (p : Nat) (a : Bool) (s : Stream), p ≤ 8 * b.length → p % 8 = i →
      Rd.eval (stop x) (Stream.at b p) = .ok (a, s) → s = Stream.at b p)
    (hs' : ∀ (x : α) (b : Bytes) (p : Nat) (a : Bool) (s : Stream), p ≤ 8 * b.length → p % 8 = i →
      Rd.eval (stop' x) (Stream.at b p) = .ok (a, s) → s = Stream.at b p) :
    ∀ (fuel fuel' : Nat), Lossless i (Dmr.repeatUntil fuel r stop) (Dmr.repeatUntil fuel' r' stop') i
  | 0, _ => throw
  | _, 0 => swap throw
  | fuel + 1, fuel' + 1 => by
    have ih := repeatUntil h hs hs' fuel fuel'
    intro b b' p p' x s s' hp hp' hi hi' e e'
    unfold Dmr.repeatUntil at e e'
    rw [eval_bind] at e e'
    rcases he : Rd.eval r (Stream.at b p) with _ | ⟨a, s1⟩
    · rw [he] at e; cases e
    rcases he' : Rd.eval r' (Stream.at b' p') with _ | ⟨a', s1'⟩
    · rw [he'] at e'; cases e'
    rw [he, andThen_ok, eval_bind] at e
    rw [he', andThen_ok, eval_bind] at e'
    rcases hc : Rd.eval (stop a) s1 with _ | ⟨c, s2⟩
    · rw [hc] at e; cases e
    rcases hc' : Rd.eval (stop' a') s1' with _ | ⟨c', s2'⟩
    · rw [hc'] at e'; cases e'
    rw [hc, andThen_ok] at e
    rw [hc', andThen_ok] at e'
    have split : ∀ {c : Bool} {a : α} {R : Rd (List α)} {s2 s : Stream} {x : List α},
        Rd.eval (if c = true then (Pure.pure [a] : Rd (List α)) else do let xs ← R; Pure.pure (a :: xs)) s2 = .ok (x, s) →
        (c = true ∧ x = [a] ∧ s = s2) ∨ (c = false ∧ ∃ xs, x = a :: xs ∧ Rd.eval R s2 = .ok (xs, s)) := by
      intro c a R s2 s x h
      cases c
      · rw [if_neg (by simp), eval_bind] at h
        rcases hR : Rd.eval R s2 with _ | ⟨xs, s3⟩
        · rw [hR] at h; cases h
        · rw [hR] at h; cases h; exact .inr ⟨rfl, xs, rfl, rfl⟩
      · rw [if_pos rfl] at h; cases h; exact .inl ⟨rfl, rfl, rfl⟩
    rcases split e with ⟨rfl, rfl, rfl⟩ | ⟨rfl, xs, rfl, f⟩ <;> rcases split e' with ⟨rfl, g1, rfl⟩ | ⟨rfl, xs', g1, f'⟩
    · cases g1
      obtain ⟨n, n1, n2, rfl, rfl, n5, n6⟩ := h b b' p p' _ s1 s1' hp hp' hi hi' he he'
      exact ⟨n, n1, n2, hs _ _ _ _ _ n1 n5 hc, hs' _ _ _ _ _ n2 (by omega) hc', n5, n6⟩
    · injection g1 with g1 g2
      exact absurd g2.symm (repeatUntil_ne_nil fuel' _ _ _ f')
    · injection g1 with g1 g2
      exact absurd g2 (repeatUntil_ne_nil fuel _ _ _ f)
    · cases g1
      obtain ⟨n, n1, n2, rfl, rfl, n5, n6⟩ := h b b' p p' _ s1 s1' hp hp' hi hi' he he'
      cases hs _ _ _ _ _ n1 n5 hc
      cases hs' _ _ _ _ _ n2 (by omega) hc'
      obtain ⟨l, l1, l2, rfl, rfl, l5, l6⟩ := ih b b' (p + n) (p' + n) _ s s' n1 n2 n5 (by omega) f f'
      exact ⟨n + l, by omega, by omega, by rw [Nat.add_assoc], by rw [Nat.add_assoc], by rw [← Nat.add_assoc]; exact l5,
        by rw [bitsAt_add b p n l l1, bitsAt_add b' p' n l l2, n6, l6]⟩

theorem stop_pure (c : α → Bool) {i : Nat} (x : α) (b : Bytes) (p : Nat) (a : Bool) (s : Stream) (_ : p ≤ 8 * b.length)
    (_ : p % 8 = i) (e : Rd.eval (do return c x) (Stream.at b p) = .ok (a, s)) : s = Stream.at b p := by
  cases e; rfl

theorem stop_eof (c : α → Bool → Bool) {i : Nat} (x : α) (b : Bytes) (p : Nat) (a : Bool) (s : Stream)
    (hp : p ≤ 8 * b.length) (_ : p % 8 = i)
    (e : Rd.eval (do let eof1 ← Dmr.isEof; return c x eof1) (Stream.at b p) = .ok (a, s)) : s = Stream.at b p := by
  rw [eval_bind, eval_isEof b p hp] at e
  cases e; rfl

theorem repeatEos {i : Nat} {r : Rd α} (h : Lossless i r r i) :
    ∀ (fuel fuel' : Nat), Lossless i (Dmr.repeatEos fuel r) (Dmr.repeatEos fuel' r) i := by
  have body : ∀ (fuel : Nat) (b : Bytes) (p : Nat) (x : List α) (s : Stream), p ≤ 8 * b.length →
      Rd.eval (Dmr.repeatEos fuel r) (Stream.at b p) = .ok (x, s) →
      (x = [] ∧ s = Stream.at b p) ∨ ∃ f, fuel = f + 1 ∧ x ≠ [] ∧
        Rd.eval (do let x ← r; let xs ← Dmr.repeatEos f r; return x :: xs) (Stream.at b p) = .ok (x, s) := by
    intro fuel b p x s hp e
    unfold Dmr.repeatEos at e
    rw [eval_bind, eval_isEof b p hp, andThen_ok] at e
    by_cases hd : p = 8 * b.length
    · rw [if_pos (by simpa using hd)] at e; cases e; exact .inl ⟨rfl, rfl⟩
    · rw [if_neg (by simpa using hd)] at e
      cases fuel with
      | zero => cases e
      | succ f =>
        refine .inr ⟨f, rfl, ?_, e⟩
        have : Returns (do let x ← r; let xs ← Dmr.repeatEos f r; return x :: xs) (· ≠ []) :=
          Returns.bind fun a => Returns.bind fun as => Returns.pure (by simp)
        exact this _ _ _ e
  intro fuel
  induction fuel with
  | zero =>
    intro fuel' b b' p p' x s s' hp hp' hi hi' e e'
    rcases body _ _ _ _ _ hp e with ⟨rfl, rfl⟩ | ⟨f, h0, _, _⟩
    · rcases body _ _ _ _ _ hp' e' with ⟨_, rfl⟩ | ⟨f, _, h1, _⟩
      · exact ⟨0, by omega, by omega, rfl, rfl, by omega, by rw [bitsAt_zero, bitsAt_zero]⟩
      · exact absurd rfl h1
    · cases h0
  | succ fuel ih =>
    intro fuel' b b' p p' x s s' hp hp' hi hi' e e'
    rcases body _ _ _ _ _ hp e with ⟨rfl, rfl⟩ | ⟨f, h0, h2, f2⟩
    · rcases body _ _ _ _ _ hp' e' with ⟨_, rfl⟩ | ⟨f, _, h1, _⟩
      · exact ⟨0, by omega, by omega, rfl, rfl, by omega, by rw [bitsAt_zero, bitsAt_zero]⟩
      · exact absurd rfl h1
    · cases h0
      rcases body _ _ _ _ _ hp' e' with ⟨h1, _⟩ | ⟨f', h1, _, f2'⟩
      · exact absurd h1 h2
      · exact head_tail h (ih f') b b' p p' x s s' hp hp' hi hi' f2 f2'

/-- `bits` with the offset after it given. -/
theorem bits' {i j : Nat} (n : Nat) (h : (i + n) % 8 = j) : Lossless i (readBitsIntBe n) (readBitsIntBe n) j := h ▸ bits n

theorem flag' {i j : Nat} (h : (i + 1) % 8 = j) : Lossless i readFlag readFlag j := h ▸ flag

/-- A field that is there in both runs. -/
theorem optTrue {i j : Nat} {r r' : Rd α} (h : Lossless i r r' j) :
    Lossless i (Dmr.optionally true r) (Dmr.optionally true r') j := by
  intro b b' p p' x s s' hp hp' hi hi' e e'
  rw [eval_optionally, if_pos rfl] at e e'
  rcases he : Rd.eval r (Stream.at b p) with _ | ⟨a, s1⟩
  · rw [he] at e; cases e
  rcases he' : Rd.eval r' (Stream.at b' p') with _ | ⟨a', s1'⟩
  · rw [he'] at e'; cases e'
  rw [he] at e; rw [he'] at e'
  cases e; cases e'
  exact h b b' p p' a s s' hp hp' hi hi' he he'

end Lossless

/-- `r` only looks at the stream, from a byte boundary. -/
def Silent (r : Rd α) : Prop := ∀ (b : Bytes) (q : Nat) (a : α) (s : Stream), q ≤ b.length →
  Rd.eval r (Stream.at b (8 * q)) = .ok (a, s) → s = Stream.at b (8 * q)

/-- From a byte boundary, also behind the end of the data, `r` ends at a byte boundary. -/
def Bytewise (r : Rd α) : Prop := ∀ (b : Bytes) (q : Nat) (a : α) (s : Stream),
  Rd.eval r (Stream.at b (8 * q)) = .ok (a, s) → ∃ q', s = Stream.at b (8 * q')

theorem Bytewise.bytes (n : Nat) : Bytewise (readBytes n) := by
  intro b q a s e
  simp only [readBytes, eval_bind] at e
  rw [eval_alignToByte, andThen_ok, (by omega : (8 * q + 7) / 8 = q), Stream.at_byte] at e
  unfold Rd.eval at e
  rw [readBytesNotAligned_eq] at e
  by_cases h : q + n ≤ b.length ∨ n = 0
  · rw [if_pos h] at e
    cases e
    exact ⟨q + n, (Stream.at_byte b (q + n)).symm⟩
  · rw [if_neg h] at e
    cases e

theorem Bytewise.bind {r : Rd α} {k : α → Rd β} (h : Bytewise r) (hk : ∀ a, Bytewise (k a)) : Bytewise (r >>= k) := by
  intro b q a s e
  rw [eval_bind] at e
  rcases he : Rd.eval r (Stream.at b (8 * q)) with _ | ⟨x, s1⟩
  · rw [he] at e; cases e
  rw [he, andThen_ok] at e
  obtain ⟨q', rfl⟩ := h b q x s1 he
  exact hk x b q' a s e

theorem Bytewise.pure (a : α) : Bytewise (Pure.pure a : Rd α) := by
  intro b q x s e; cases e; exact ⟨q, rfl⟩

theorem Bytewise.throw {e : PyErr} : Bytewise (Rd.throw e : Rd α) := by
  intro b q x s e; cases e

theorem Bytewise.u1 : Bytewise readU1 := (Bytewise.bytes 1).bind fun _ => Bytewise.pure _
theorem Bytewise.u2be : Bytewise readU2be := (Bytewise.bytes 2).bind fun _ => Bytewise.pure _

theorem Bytewise.asEnum {E : Type} [PyEnum E] {r : Rd Nat} (h : Bytewise r) : Bytewise (Dmr.asEnum E r) :=
  h.bind fun _ => Bytewise.pure _

theorem Bytewise.decodeWith {c : Bytes → Option PyStr} {r : Rd Bytes} (h : Bytewise r) : Bytewise (Dmr.decodeWith c r) := by
  refine h.bind fun a => ?_
  cases c a
  · exact Bytewise.throw
  · exact Bytewise.pure _

/-- Seeking elsewhere, reading there and seeking back. -/
theorem Silent.peek (n : Nat) {r : Rd α} (h : Bytewise r) :
    Silent (do let pos ← posIo; seekIo n; let v ← r; seekIo pos; return v) := by
  intro b q a s hq e
  rw [eval_bind, eval_posIo, andThen_ok, eval_bind, eval_seekIo, andThen_ok, eval_bind] at e
  rcases he : Rd.eval r (Stream.at b (8 * n)) with _ | ⟨x, s1⟩
  · rw [he] at e; cases e
  obtain ⟨q', rfl⟩ := h b n x s1 he
  rw [he, andThen_ok, eval_bind, eval_seekIo, andThen_ok, eval_pure] at e
  cases e
  rw [show (8 * q + 7) / 8 = q by omega]

theorem Silent.size : Silent sizeIo := by intro b q a s hq e; rw [eval_sizeIo] at e; cases e; rfl
theorem Silent.pos : Silent posIo := by intro b q a s hq e; rw [eval_posIo] at e; cases e; rfl
theorem Silent.align : Silent alignToByte := by
  intro b q a s hq e; rw [eval_alignToByte] at e; cases e; rw [show (8 * q + 7) / 8 = q by omega]
theorem Silent.pure (a : α) : Silent (Pure.pure a : Rd α) := by intro b q x s hq e; cases e; rfl
theorem Silent.throw {e : PyErr} : Silent (Rd.throw e : Rd α) := by intro b q x s hq e; cases e

theorem Silent.bind {r : Rd α} {k : α → Rd β} (h : Silent r) (hk : ∀ a, Silent (k a)) : Silent (r >>= k) := by
  intro b q a s hq e
  rw [eval_bind] at e
  rcases he : Rd.eval r (Stream.at b (8 * q)) with _ | ⟨x, s1⟩
  · rw [he] at e; cases e
  rw [he, andThen_ok] at e
  cases h b q x s1 hq he
  exact hk x b q a s hq e

theorem Silent.optionally {c : Bool} {r : Rd α} (h : Silent r) : Silent (Dmr.optionally c r) := by
  cases c
  · exact Silent.pure _
  · exact h.bind fun _ => Silent.pure _

namespace Lossless

/-- A part that only looks at the stream, and whose value can be seen from the result. -/
theorem ofSilent {r r' : Rd α} (h : Silent r) (h' : Silent r') : Lossless 0 r r' 0 := by
  intro b b' p p' x s s' hp hp' hi hi' e e'
  obtain ⟨q, rfl⟩ : ∃ q, p = 8 * q := ⟨p / 8, by omega⟩
  obtain ⟨q', rfl⟩ : ∃ q, p' = 8 * q := ⟨p' / 8, by omega⟩
  cases h b q x s (by omega) e
  cases h' b' q' x s' (by omega) e'
  exact ⟨0, by omega, by omega, rfl, rfl, by omega, by rw [bitsAt_zero, bitsAt_zero]⟩

/-- A part that only looks at the stream. -/
theorem peek {j : Nat} {r r' : Rd α} {k k' : α → Rd β} (h : Silent r) (h' : Silent r')
    (hk : ∀ a a', Lossless 0 (k a) (k' a') j) : Lossless 0 (r >>= k) (r' >>= k') j := by
  refine silent ?_ ?_ hk
  · intro b p a s hp hi e
    obtain ⟨q, rfl⟩ : ∃ q, p = 8 * q := ⟨p / 8, by omega⟩
    exact h b q a s (by omega) e
  · intro b p a s hp hi e
    obtain ⟨q, rfl⟩ : ∃ q, p = 8 * q := ⟨p / 8, by omega⟩
    exact h' b q a s (by omega) e

/-- Two readers that cannot return the same. -/
theorem clash {i j : Nat} {r r' : Rd α} {P : α → Prop} (h : Returns r P) (h' : Returns r' fun x => ¬ P x) :
    Lossless i r r' j := by
  intro b b' p p' x s s' hp hp' hi hi' e e'
  exact absurd (h _ _ _ e) (h' _ _ _ e')

/-- Byte strings of computed lengths: equal strings have equal lengths. -/
theorem bytes₂ (n n' : Nat) : Lossless 0 (readBytes n) (readBytes n') 0 := by
  intro b b' p p' x s s' hp hp' hi hi' e e'
  have hl : n = n' := by
    rw [eval_readBytes _ _ _ hp] at e
    rw [eval_readBytes _ _ _ hp'] at e'
    split at e
    · split at e'
      · rename_i h1 h2
        injection e with e
        injection e' with e'
        injection e with e1 _
        injection e' with e2 _
        have := congrArg List.length (e1.trans e2.symm)
        rwa [length_slice _ _ _ h1, length_slice _ _ _ h2] at this
      · cases e'
    · cases e
  subst hl
  exact bytes n b b' p p' x s s' hp hp' hi hi' e e'

theorem bytesInt₂ (n n' : Int) : Lossless 0 (readBytesInt n) (readBytesInt n') 0 := by
  intro b b' p p' x s s' hp hp' hi hi' e e'
  rw [eval_readBytesInt _ _ _ hp] at e
  rw [eval_readBytesInt _ _ _ hp'] at e'
  split at e
  · cases e
  split at e'
  · cases e'
  exact bytes₂ n.toNat n'.toNat b b' p p' x s s' hp hp' hi hi' (by rw [eval_readBytes _ _ _ hp]; exact e)
    (by rw [eval_readBytes _ _ _ hp']; exact e')

end Lossless

theorem decodeUtf8_inj (a a' : Bytes) (s : PyStr) (h : decodeUtf8 a = some s) (h' : decodeUtf8 a' = some s) : a = a' :=
  ((decodeUtf8_iff a s).1 h).symm.trans ((decodeUtf8_iff a' s).1 h')
theorem decodeUtf16le_inj (a a' : Bytes) (s : PyStr) (h : decodeUtf16le a = some s) (h' : decodeUtf16le a' = some s) :
    a = a' :=
  ((decodeUtf16le_iff a s).1 h).symm.trans ((decodeUtf16le_iff a' s).1 h')
theorem decodeUtf16be_inj (a a' : Bytes) (s : PyStr) (h : decodeUtf16be a = some s) (h' : decodeUtf16be a' = some s) :
    a = a' :=
  ((decodeUtf16be_iff a s).1 h).symm.trans ((decodeUtf16be_iff a' s).1 h')
theorem decodeAscii_inj (a a' : Bytes) (s : PyStr) (h : decodeAscii a = some s) (h' : decodeAscii a' = some s) : a = a' :=
  Option.some.inj (((decodeAscii_iff a s).1 h).symm.trans ((decodeAscii_iff a' s).1 h'))

/-- Every way through the reader ends in an object whose field is the value read. -/
macro "returns" : tactic => `(tactic| (
  intros
  repeat' first
    | with_reducible exact Returns.pure rfl
    | with_reducible exact Returns.throw
    | with_reducible refine Returns.bind fun _ => ?_
    | with_reducible refine Returns.ite ?_ ?_
    | split))

theorem beVal_inj : ∀ {a a' : Bytes}, a.length = a'.length → beVal a = beVal a' → a = a'
  | [], [], _, _ => rfl
  | x :: xs, y :: ys, hl, h => by
    simp only [List.length_cons, Nat.add_right_cancel_iff] at hl
    simp only [beVal, hl] at h
    have h1 := beVal_lt xs
    have h2 := beVal_lt ys
    rw [hl] at h1
    generalize 256 ^ ys.length = m at *
    have hm : 0 < m := by omega
    have e1 : (x.toNat * m + beVal xs) / m = x.toNat := by
      rw [Nat.mul_comm, Nat.mul_add_div hm, Nat.div_eq_of_lt h1, Nat.add_zero]
    have e2 : (y.toNat * m + beVal ys) / m = y.toNat := by
      rw [Nat.mul_comm, Nat.mul_add_div hm, Nat.div_eq_of_lt h2, Nat.add_zero]
    have ex : x.toNat = y.toNat := by rw [← e1, h, e2]
    rw [UInt8.toNat_inj.1 ex, beVal_inj hl (by rw [ex] at h; omega)]
  | [], _ :: _, hl, _ => by simp at hl
  | _ :: _, [], hl, _ => by simp at hl

end Dmr
