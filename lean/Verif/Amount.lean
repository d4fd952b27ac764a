import Verif.Lossless
import Verif.Spec.Amount
/-
How much a decoded object holds, compared with what was consumed to decode it.

`PyVal.amount` (Verif/Spec/Amount.lean) counts the bytes, the characters and the list entries of a Python value. `Fits i c r g j`: if `r` returns `x` then
`g x` is at most `c` plus the number of bits consumed (`i`, `j`: the bit offsets within a byte before and after; 8 if not known). The credit
`c` is what earlier parts of a decoder have consumed and not used up.
-/

set_option autoImplicit false

namespace Dmr

variable {α β : Type}

/-- `g` of what may be absent. -/
def optW (g : α → Nat) : Option α → Nat
  | some x => g x
  | none => 0

/-- The sum of `g` over a list. -/
def listW (g : α → Nat) : List α → Nat
  | [] => 0
  | x :: l => g x + listW g l

theorem amountAttrs_append (l l' : List (String × PyVal)) :
    PyVal.amountAttrs (l ++ l') = PyVal.amountAttrs l + PyVal.amountAttrs l' := by
  induction l with
  | nil => simp [PyVal.amountAttrs]
  | cons a l ih => obtain ⟨n, x⟩ := a; simp only [List.cons_append, PyVal.amountAttrs, ih]; omega

/-- The attributes of an object, one list for each assignment. -/
def amountParts : List (List (String × PyVal)) → Nat
  | [] => 0
  | a :: l => PyVal.amountAttrs a + amountParts l

theorem amount_object (cls : String) (l : List (List (String × PyVal))) :
    PyVal.amount (PyVal.object cls l) = amountParts l := by
  unfold PyVal.object
  simp only [PyVal.amount, amountAttrs_append, PyVal.amountAttrs, Nat.add_zero, Nat.zero_add]
  induction l with
  | nil => simp [PyVal.amountAttrs, amountParts]
  | cons a l ih => simp only [List.flatten_cons, amountAttrs_append, amountParts, ih]

theorem amount_attr (n : String) (v : PyVal) : PyVal.amountAttrs (PyVal.attr n v) = PyVal.amount v := by
  simp [PyVal.attr, PyVal.amountAttrs]

theorem amount_optAttr (n : String) (o : Option α) (f : α → PyVal) :
    PyVal.amountAttrs (PyVal.optAttr n (o.map f)) = optW (fun y => PyVal.amount (f y)) o := by
  cases o <;> simp [PyVal.optAttr, PyVal.amountAttrs, optW]

theorem amount_enum {E : Type} [PyEnum E] (c : String) (v : EnumVal E) : PyVal.amount (EnumVal.toPy c v) = 0 := by
  cases v <;> rfl

theorem amount_list (l : List α) (f : α → PyVal) :
    PyVal.amount (.list (l.map f)) = listW (fun y => 1 + PyVal.amount (f y)) l := by
  rw [PyVal.amount]
  induction l with
  | nil => rfl
  | cons x l ih => simp only [List.map_cons, PyVal.amountItems, listW, ih]

theorem amount_items (l : List α) (f : α → PyVal) :
    PyVal.amountItems (l.map f) = listW (fun y => 1 + PyVal.amount (f y)) l := by
  have := amount_list l f
  rwa [PyVal.amount] at this

theorem mul_optW (g : α → Nat) (o : Option α) : 8 * optW g o = optW (fun x => 8 * g x) o := by cases o <;> rfl
theorem mul_listW (g : α → Nat) (l : List α) : 8 * listW g l = listW (fun x => 8 * g x) l := by
  induction l with
  | nil => rfl
  | cons x l ih => simp only [listW, Nat.mul_add, ih]
theorem optW_some (g : α → Nat) (x : α) : optW g (some x) = g x := rfl
theorem optW_none (g : α → Nat) : optW g none = 0 := rfl
theorem optW_zero (o : Option α) : optW (fun _ => 0) o = 0 := by cases o <;> rfl

/-- The bit position `p` has offset `i` within its byte, or nothing is said (8). -/
def OffsetIs (p i : Nat) : Prop := i < 8 → p % 8 = i

/-- See the head of this file. -/
def Fits (i c : Nat) (r : Rd α) (g : α → Nat) (j : Nat) : Prop :=
  ∀ (b : Bytes) (p : Nat) (x : α) (s : Stream), p ≤ 8 * b.length → OffsetIs p i → Rd.eval r (Stream.at b p) = .ok (x, s) →
    ∃ n, p + n ≤ 8 * b.length ∧ s = Stream.at b (p + n) ∧ OffsetIs (p + n) j ∧ g x ≤ c + n

namespace Fits

theorem pure {i j c : Nat} {a : α} {g : α → Nat} (h : i = j ∨ 8 ≤ j) (hg : g a ≤ c) : Fits i c (Pure.pure a : Rd α) g j := by
  intro b p x s hp hi e
  cases e
  exact ⟨0, by omega, rfl, by unfold OffsetIs at *; omega, by omega⟩

theorem throw {i j c : Nat} {e : PyErr} {g : α → Nat} : Fits i c (Rd.throw e : Rd α) g j := by
  intro b p x s hp hi e
  cases e

theorem bind {i j c : Nat} (m : Nat) {r : Rd α} {k : α → Rd β} {ga : α → Nat} {g : β → Nat} (hr : Fits i 0 r ga m)
    (hk : ∀ a, Fits m (c + ga a) (k a) g j) : Fits i c (r >>= k) g j := by
  intro b p x s hp hi e
  rw [eval_bind] at e
  rcases he : Rd.eval r (Stream.at b p) with _ | ⟨a, s1⟩
  · rw [he] at e; cases e
  rw [he, andThen_ok] at e
  obtain ⟨n, n1, rfl, n3, n4⟩ := hr b p a s1 hp hi he
  obtain ⟨l, l1, rfl, l3, l4⟩ := hk a b (p + n) x s n1 n3 e
  exact ⟨n + l, by omega, by rw [Nat.add_assoc], by rw [← Nat.add_assoc]; exact l3, by omega⟩

theorem weaken {i j c c' : Nat} {r : Rd α} {g g' : α → Nat} (h : Fits i c' r g' j) (hc : c' ≤ c) (hg : ∀ x, g x ≤ g' x) :
    Fits i c r g j := by
  intro b p x s hp hi e
  obtain ⟨n, n1, n2, n3, n4⟩ := h b p x s hp hi e
  exact ⟨n, n1, n2, n3, by have := hg x; omega⟩

theorem map {i j c : Nat} {r : Rd α} {f : α → β} {ga : α → Nat} {g : β → Nat} (hr : Fits i 0 r ga j)
    (hf : ∀ a, g (f a) ≤ c + ga a) : Fits i c (r >>= fun a => (Pure.pure (f a) : Rd β)) g j :=
  bind j hr fun a => pure (.inl rfl) (hf a)

theorem ite {q : Prop} [Decidable q] {i j c : Nat} {r r' : Rd α} {g : α → Nat} (h : q → Fits i c r g j)
    (h' : ¬ q → Fits i c r' g j) : Fits i c (if q then r else r') g j := by
  split
  · exact h ‹_›
  · exact h' ‹_›

/-- The first part only looks at the stream. -/
theorem silent {i j c : Nat} {r : Rd α} {k : α → Rd β} {g : β → Nat}
    (hr : ∀ (b : Bytes) (p : Nat) (a : α) (s : Stream), p ≤ 8 * b.length → OffsetIs p i →
      Rd.eval r (Stream.at b p) = .ok (a, s) → s = Stream.at b p)
    (hk : ∀ a, Fits i c (k a) g j) : Fits i c (r >>= k) g j := by
  intro b p x s hp hi e
  rw [eval_bind] at e
  rcases he : Rd.eval r (Stream.at b p) with _ | ⟨a, s1⟩
  · rw [he] at e; cases e
  rw [he, andThen_ok] at e
  cases hr b p a s1 hp hi he
  exact hk a b p x s hp hi e

theorem isEof {i j c : Nat} {k : Bool → Rd β} {g : β → Nat} (hk : ∀ a, Fits i c (k a) g j) :
    Fits i c (Dmr.isEof >>= k) g j :=
  silent (fun b p a s hp _ h => by rw [eval_isEof b p hp] at h; cases h; rfl) hk

theorem loopFuel {i j c : Nat} {k : Nat → Rd β} {g : β → Nat} (hk : ∀ a, Fits i c (k a) g j) :
    Fits i c (Dmr.loopFuel >>= k) g j :=
  silent (fun b p a s hp _ h => by rw [eval_loopFuel b p] at h; cases h; rfl) hk

theorem validate {γ : Type} [DecidableEq γ] {i j c : Nat} {v e : γ} {path : String} {k : Unit → Rd β} {g : β → Nat}
    (hk : Fits i c (k ()) g j) : Fits i c (validateEq v e path >>= k) g j := by
  refine silent ?_ fun _ => hk
  intro b p a s hp h0 h
  rw [eval_validateEq] at h
  split at h <;> cases h
  rfl

theorem align {i j c : Nat} {k : Unit → Rd β} {g : β → Nat} (hk : Fits 0 c (k ()) g j) :
    Fits i c (alignToByte >>= k) g j := by
  refine bind 0 (ga := fun _ => 0) ?_ fun _ => hk
  intro b p a s hp h0 h
  rw [eval_alignToByte] at h
  cases h
  exact ⟨8 * ((p + 7) / 8) - p, by omega, by congr 1; omega, by unfold OffsetIs; omega, Nat.zero_le _⟩

theorem peek {j c : Nat} {r : Rd α} {k : α → Rd β} {g : β → Nat} (h : Silent r) (hk : ∀ a, Fits 0 c (k a) g j) :
    Fits 0 c (r >>= k) g j := by
  refine silent ?_ hk
  intro b p a s hp hi e
  unfold OffsetIs at hi
  obtain ⟨q, rfl⟩ : ∃ q, p = 8 * q := ⟨p / 8, by omega⟩
  exact h b q a s (by omega) e

theorem optionally {i : Nat} {q : Bool} {r : Rd α} {g : α → Nat} (h : q = true → Fits i 0 r g i) :
    Fits i 0 (Dmr.optionally q r) (optW g) i := by
  intro b p x s hp hi e
  rw [eval_optionally] at e
  cases q
  · cases e
    exact ⟨0, by omega, rfl, hi, by simp [optW]⟩
  · rw [if_pos rfl] at e
    rcases he : Rd.eval r (Stream.at b p) with _ | ⟨a, s1⟩
    · rw [he] at e; cases e
    · rw [he] at e; cases e
      exact h rfl b p a s hp hi he

theorem optTrue {i j : Nat} {r : Rd α} {g : α → Nat} (h : Fits i 0 r g j) :
    Fits i 0 (Dmr.optionally true r) (optW g) j := by
  intro b p x s hp hi e
  rw [eval_optionally, if_pos rfl] at e
  rcases he : Rd.eval r (Stream.at b p) with _ | ⟨a, s1⟩
  · rw [he] at e; cases e
  · rw [he] at e; cases e
    exact h b p a s hp hi he

theorem asEnum {E : Type} [PyEnum E] {i j n : Nat} {r : Rd Nat} (h : Fits i 0 r (fun _ => n) j) :
    Fits i 0 (Dmr.asEnum E r) (fun _ => n) j := map h fun _ => by omega

theorem decodeWith {c : Bytes → Option PyStr} {i j : Nat} {r : Rd Bytes} (h : Fits i 0 r (fun a => 8 * a.length) j)
    (hc : ∀ a s, c a = some s → s.length ≤ a.length) : Fits i 0 (Dmr.decodeWith c r) (fun s => 8 * s.length) j := by
  unfold Dmr.decodeWith
  refine bind j h fun a => ?_
  cases h1 : c a with
  | none => exact throw
  | some t => exact pure (.inl rfl) (by have := hc a t h1; omega)

theorem bits {i j : Nat} (n : Nat) (hj : 8 ≤ j ∨ i < 8 ∧ (i + n) % 8 = j) : Fits i 0 (readBitsIntBe n) (fun _ => n) j := by
  intro b p x s hp hi e
  rw [eval_readBitsIntBe _ _ _ hp] at e
  split at e
  · cases e; exact ⟨n, by omega, rfl, by unfold OffsetIs at *; omega, by dsimp only; omega⟩
  · cases e

theorem flag {i j : Nat} (hj : 8 ≤ j ∨ i < 8 ∧ (i + 1) % 8 = j) : Fits i 0 readFlag (fun _ => 1) j := by
  intro b p x s hp hi e
  rw [eval_readFlag _ _ hp] at e
  split at e
  · cases e; exact ⟨1, by omega, rfl, by unfold OffsetIs at *; omega, by dsimp only; omega⟩
  · cases e

theorem bytes' {i : Nat} (n : Nat) : Fits i 0 (readBytes n) (fun a => max (8 * n) (8 * a.length)) 0 := by
  intro b p x s hp hi e
  rw [eval_readBytes _ _ _ hp] at e
  split at e
  · rename_i h
    cases e
    exact ⟨8 * ((p + 7) / 8 + n) - p, by omega, by congr 1; omega, by unfold OffsetIs; omega,
      by dsimp only; rw [length_slice b _ n h]; omega⟩
  · cases e

theorem bytes {i : Nat} (n : Nat) : Fits i 0 (readBytes n) (fun a => 8 * a.length) 0 :=
  (bytes' n).weaken (Nat.le_refl _) fun _ => by omega

theorem bytesInt {i : Nat} (n : Int) : Fits i 0 (readBytesInt n) (fun a => 8 * a.length) 0 := by
  intro b p x s hp hi e
  by_cases hn : n < 0
  · rw [eval_readBytesInt _ _ _ hp, if_pos hn] at e
    cases e
  · rw [eval_readBytesInt _ _ _ hp, if_neg hn] at e
    exact bytes n.toNat b p x s hp hi (by rw [eval_readBytes _ _ _ hp]; exact e)

theorem full {i : Nat} : Fits i 0 readBytesFull (fun a => 8 * a.length) 0 := by
  intro b p x s hp hi e
  rw [eval_readBytesFull _ _ hp] at e
  cases e
  exact ⟨8 * b.length - p, by omega, by congr 1; omega, by unfold OffsetIs; omega,
    by dsimp only; rw [List.length_drop]; omega⟩

theorem num {i n : Nat} {f : Bytes → α} :
    Fits i 0 (readBytes n >>= fun a => (Pure.pure (f a) : Rd α)) (fun _ => 8 * n) 0 :=
  map (bytes' n) fun _ => by omega

theorem u1 {i : Nat} : Fits i 0 readU1 (fun _ => 8) 0 := num
theorem u2be {i : Nat} : Fits i 0 readU2be (fun _ => 16) 0 := num
theorem u2le {i : Nat} : Fits i 0 readU2le (fun _ => 16) 0 := num
theorem s2be {i : Nat} : Fits i 0 readS2be (fun _ => 16) 0 := num
theorem u4be {i : Nat} : Fits i 0 readU4be (fun _ => 32) 0 := num
theorem u4le {i : Nat} : Fits i 0 readU4le (fun _ => 32) 0 := num

theorem repeatN {i : Nat} {r : Rd α} {g : α → Nat} (h : Fits i 0 r g i) :
    ∀ n, Fits i 0 (Dmr.repeatN n r) (fun l => listW g l) i
  | 0 => pure (.inl rfl) (by simp [listW])
  | n + 1 => by
    refine bind i h fun a => bind i (repeatN h n) fun l => pure (.inl rfl) ?_
    simp only [listW]; omega

theorem repeatUntil {i : Nat} {r : Rd α} {stop : α → Rd Bool} {g : α → Nat} (h : Fits i 0 r g i)
    (hs : ∀ x (b : Bytes) (p : Nat) (a : Bool) (s : Stream), p ≤ 8 * b.length → OffsetIs p i →
      Rd.eval (stop x) (Stream.at b p) = .ok (a, s) → s = Stream.at b p) :
    ∀ n, Fits i 0 (Dmr.repeatUntil n r stop) (fun l => listW g l) i
  | 0 => throw
  | n + 1 => by
    refine bind i h fun a => ?_
    refine silent (hs a) fun q => ?_
    cases q
    · refine bind i (repeatUntil h hs n) fun l => pure (.inl rfl) ?_
      simp only [listW]; omega
    · exact pure (.inl rfl) (by simp only [listW]; omega)

theorem repeatEos {i : Nat} {r : Rd α} {g : α → Nat} (h : Fits i 0 r g i) :
    ∀ n, Fits i 0 (Dmr.repeatEos n r) (fun l => listW g l) i
  | 0 => by
    unfold Dmr.repeatEos
    refine isEof fun q => ?_
    cases q
    · exact throw
    · exact pure (.inl rfl) (by simp [listW])
  | n + 1 => by
    unfold Dmr.repeatEos
    refine isEof fun q => ?_
    cases q
    · refine bind i h fun a => bind i (repeatEos h n) fun l => pure (.inl rfl) ?_
      simp only [listW]; omega
    · exact pure (.inl rfl) (by simp [listW])

/-- A list entry counts for one byte. -/
theorem item {j c : Nat} {r : Rd α} {n : Nat} (h : Fits j c r (fun _ => n) j) (hn : 8 ≤ n) : Fits j c r (fun _ => 8) j :=
  h.weaken (Nat.le_refl _) fun _ => hn

/-- Nothing need be known about the offset. -/
theorem anywhere {i j c : Nat} {r : Rd α} {g : α → Nat} (h : Fits i c r g j) : Fits i c r g 8 := by
  intro b p x s hp hi e
  obtain ⟨n, n1, n2, n3, n4⟩ := h b p x s hp hi e
  exact ⟨n, n1, n2, fun h => by omega, n4⟩

theorem optAny {i : Nat} {q : Bool} {r : Rd α} {g : α → Nat} (h : q = true → Fits i 0 r g 8) :
    Fits i 0 (Dmr.optionally q r) (optW g) 8 := by
  cases q
  · exact pure (.inr (Nat.le_refl _)) (by simp [optW])
  · exact optTrue (h rfl)

theorem stop_pure {i : Nat} (q : α → Bool) (x : α) (b : Bytes) (p : Nat) (a : Bool) (s : Stream) (_ : p ≤ 8 * b.length)
    (_ : OffsetIs p i) (e : Rd.eval ((fun x => (Pure.pure (q x) : Rd Bool)) x) (Stream.at b p) = .ok (a, s)) :
    s = Stream.at b p := by cases e; rfl

theorem stop_eof {i : Nat} (q : α → Bool → Bool) (x : α) (b : Bytes) (p : Nat) (a : Bool) (s : Stream)
    (hp : p ≤ 8 * b.length) (_ : OffsetIs p i)
    (e : Rd.eval ((fun x => Dmr.isEof >>= fun eof => (Pure.pure (q x eof) : Rd Bool)) x) (Stream.at b p) = .ok (a, s)) :
    s = Stream.at b p := by
  dsimp only at e
  rw [eval_bind, eval_isEof b p hp, andThen_ok] at e
  cases e; rfl

end Fits

theorem length_le_flatMap (f : Char → Bytes) (hf : ∀ c, 1 ≤ (f c).length) (s : PyStr) : s.length ≤ (s.flatMap f).length := by
  induction s with
  | nil => simp
  | cons c s ih =>
    have := hf c
    simp only [List.flatMap_cons, List.length_append, List.length_cons]
    omega

theorem decodeUtf8_short (b : Bytes) (s : PyStr) (h : decodeUtf8 b = some s) : s.length ≤ b.length := by
  rw [← (decodeUtf8_iff b s).1 h]
  refine length_le_flatMap _ (fun c => ?_) s
  unfold Spec.encUtf8Char
  dsimp only
  repeat' split
  all_goals simp

theorem utf16_short (f : Nat → Bytes) (hf : ∀ u, 1 ≤ (f u).length) (s : PyStr) :
    s.length ≤ (s.flatMap fun c => (Spec.utf16Units c).flatMap f).length := by
  refine length_le_flatMap _ (fun c => ?_) s
  unfold Spec.utf16Units
  dsimp only
  split
  · have := hf c.toNat
    simpa using this
  · have := hf (0xD800 + (c.toNat - 0x10000) / 1024)
    simp only [List.flatMap_cons, List.length_append]
    omega

theorem decodeUtf16le_short (b : Bytes) (s : PyStr) (h : decodeUtf16le b = some s) : s.length ≤ b.length := by
  rw [← (decodeUtf16le_iff b s).1 h]
  exact utf16_short _ (fun u => by simp [Spec.unitBytesLe]) s

theorem decodeUtf16be_short (b : Bytes) (s : PyStr) (h : decodeUtf16be b = some s) : s.length ≤ b.length := by
  rw [← (decodeUtf16be_iff b s).1 h]
  exact utf16_short _ (fun u => by simp [Spec.unitBytesBe]) s

theorem encAscii_length : ∀ (s : PyStr) (b : Bytes), Spec.encAscii s = some b → s.length ≤ b.length
  | [], b, _ => by simp
  | c :: s, b, h => by
    unfold Spec.encAscii at h
    cases h1 : Spec.encAsciiChar c with
    | none => rw [h1] at h; simp at h
    | some a =>
      cases h2 : Spec.encAscii s with
      | none => rw [h1, h2] at h; simp at h
      | some d =>
        rw [h1, h2] at h
        cases h
        have := encAscii_length s d h2
        have ha : 1 ≤ a.length := by
          unfold Spec.encAsciiChar at h1
          split at h1 <;> cases h1
          simp
        simp only [List.length_cons, List.length_append]
        omega

theorem decodeAscii_short (b : Bytes) (s : PyStr) (h : decodeAscii b = some s) : s.length ≤ b.length :=
  encAscii_length s b ((decodeAscii_iff b s).1 h)

/-- Compare what an object holds with the credit collected for its attributes. -/
macro "weigh" "[" ls:Lean.Parser.Tactic.simpLemma,* "]" : tactic => `(tactic|
  (simp only [$ls,*, amount_object, amountParts, amount_attr, amount_optAttr, amount_enum, amount_items, PyVal.amount,
    Nat.mul_add, mul_optW, mul_listW, Nat.mul_zero, optW_zero, optW_some, optW_none, Nat.add_zero, Nat.zero_add, Nat.mul_one]; try omega))

end Dmr
