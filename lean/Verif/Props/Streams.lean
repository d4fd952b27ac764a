import Verif.Refine
import Verif.Spec.Bits
/-
C01, C02: the stream primitives.
-/

namespace Dmr

open Spec

/-! ### Bit lists and `bitsAt` -/

theorem length_bitsOf (b : Bytes) : (bitsOf b).length = 8 * b.length := by
  induction b with
  | nil => rfl
  | cons x xs ih =>
    rw [bitsOf, List.flatMap_cons, List.length_append, ← bitsOf, ih]
    simp [byteBits]; omega

theorem bitsVal_append (a b : List Bool) : bitsVal (a ++ b) = bitsVal a * 2 ^ b.length + bitsVal b := by
  induction a with
  | nil => simp [bitsVal]
  | cons x xs ih =>
    simp only [List.cons_append, bitsVal, ih, List.length_append, Nat.pow_add]
    split <;> ring

theorem bitsVal_lt (a : List Bool) : bitsVal a < 2 ^ a.length := by
  induction a with
  | nil => simp [bitsVal]
  | cons x xs ih =>
    simp only [bitsVal, List.length_cons, Nat.pow_succ]
    split <;> omega

set_option maxRecDepth 20000 in
theorem bitsVal_byteBits (x : UInt8) : bitsVal (byteBits x) = x.toNat := by
  have h : ∀ n, n < 256 → bitsVal ([7, 6, 5, 4, 3, 2, 1, 0].map fun i => Nat.testBit n i) = n := by decide
  exact h _ x.toNat_lt

theorem bitsVal_bitsOf (b : Bytes) : bitsVal (bitsOf b) = beVal b := by
  induction b with
  | nil => rfl
  | cons x xs ih =>
    rw [bitsOf, List.flatMap_cons, bitsVal_append, ← bitsOf, ih, bitsVal_byteBits, length_bitsOf, beVal, pow256]

/-- `bitsAt` is the number denoted by a stretch of the bit list. -/
theorem bitsAt_eq (b : Bytes) (p n : Nat) (h : p + n ≤ 8 * b.length) :
    bitsAt b p n = bitsVal (((bitsOf b).drop p).take n) := by
  have hlen := length_bitsOf b
  have e : bitsOf b = (bitsOf b).take p ++ (((bitsOf b).drop p).take n ++ (bitsOf b).drop (p + n)) := by
    rw [← List.drop_drop, List.take_append_drop, List.take_append_drop]
  have hv : beVal b = bitsVal ((bitsOf b).take p ++ (((bitsOf b).drop p).take n ++ (bitsOf b).drop (p + n))) := by
    rw [← e, bitsVal_bitsOf]
  have hd : ((bitsOf b).drop (p + n)).length = 8 * b.length - (p + n) := by simp [hlen]
  have hm : (((bitsOf b).drop p).take n).length = n := by simp [hlen]; omega
  have h1 := bitsVal_lt ((bitsOf b).drop (p + n))
  have h2 := bitsVal_lt (((bitsOf b).drop p).take n)
  rw [bitsVal_append, bitsVal_append, List.length_append, hd, hm] at hv
  rw [hd] at h1
  rw [hm] at h2
  unfold bitsAt
  rw [hv, Nat.pow_add]
  generalize bitsVal ((bitsOf b).drop (p + n)) = D at *
  generalize bitsVal (((bitsOf b).drop p).take n) = S at *
  generalize bitsVal ((bitsOf b).take p) = A at *
  generalize 8 * b.length - (p + n) = m at *
  have : A * (2 ^ n * 2 ^ m) + (S * 2 ^ m + D) = D + (S + A * 2 ^ n) * 2 ^ m := by ring
  rw [this, Nat.add_mul_div_right _ _ (Nat.two_pow_pos m), Nat.div_eq_of_lt h1, Nat.zero_add,
    Nat.add_mul_mod_self_right, Nat.mod_eq_of_lt h2]

/-! ### C01 -/

/-- A run of `read_bits_int_be` calls, as in every bit-oriented `_read`. -/
def readFields : List Nat → Rd (List Nat)
  | [] => return []
  | w :: ws => do
    let x ← readBitsIntBe w
    let xs ← readFields ws
    return x :: xs

theorem eval_readFields (buf : Bytes) (ws : List Nat) :
    ∀ p, p ≤ 8 * buf.length → Rd.eval (readFields ws) (Stream.at buf p) =
      if p + ws.sum ≤ 8 * buf.length then .ok (fieldsOf ws ((bitsOf buf).drop p), Stream.at buf (p + ws.sum))
      else .error .eof := by
  induction ws with
  | nil => intro p hp; simp [readFields, eval_pure, hp, fieldsOf]
  | cons w ws ih =>
    intro p hp
    rw [List.sum_cons]
    simp only [readFields, eval_bind, eval_readBitsIntBe _ _ _ hp]
    by_cases h : p + w ≤ 8 * buf.length
    · rw [if_pos h, andThen_ok, ih _ h]
      have e : p + (w + ws.sum) = p + w + ws.sum := by omega
      rw [e]
      by_cases h' : p + w + ws.sum ≤ 8 * buf.length
      · rw [if_pos h', if_pos h', andThen_ok, eval_pure, fieldsOf, bitsAt_eq _ _ _ h, List.drop_drop]
      · rw [if_neg h', if_neg h', andThen_error]
    · rw [if_neg h, if_neg (by omega), andThen_error]

/-- C01: reading fields of widths `ws` after having read fields of widths `skip` yields exactly the
consecutive most-significant-first slices of the bits of the input that follow the skipped ones; EOFError iff the
input has fewer bits than requested. -/
theorem C01_fields (buf : Bytes) (skip ws : List Nat) :
    fromBytes (do let _ ← readFields skip; readFields ws) buf =
      if skip.sum + ws.sum ≤ (bitsOf buf).length
      then .ok (fieldsOf ws ((bitsOf buf).drop skip.sum))
      else .error .eof := by
  rw [fromBytes_eq, eval_bind, eval_readFields _ _ 0 (by omega), length_bitsOf, Nat.zero_add]
  by_cases h : skip.sum ≤ 8 * buf.length
  · rw [if_pos h, andThen_ok, eval_readFields _ _ _ h]
    split <;> rfl
  · rw [if_neg h, if_neg (by omega), andThen_error]; rfl

/-- C01: reading `a + b` bits at once is reading `a` bits, then `b` bits, and concatenating, wherever in
the input (after the fields `skip`) and whatever is read afterwards (`rest`). -/
theorem C01_concat (buf : Bytes) (skip : List Nat) (a b : Nat) (rest : Nat → Rd α) :
    fromBytes (do let _ ← readFields skip; let x ← readBitsIntBe (a + b); rest x) buf =
      fromBytes (do let _ ← readFields skip; let x ← readBitsIntBe a; let y ← readBitsIntBe b
                    rest (x * 2 ^ b + y)) buf := by
  simp only [fromBytes_eq, eval_bind, eval_readFields _ _ 0 (Nat.zero_le _), Nat.zero_add]
  by_cases h : skip.sum ≤ 8 * buf.length
  · simp only [if_pos h, andThen_ok, eval_readBitsIntBe _ _ _ h]
    by_cases h1 : skip.sum + a ≤ 8 * buf.length
    · simp only [if_pos h1, andThen_ok, eval_readBitsIntBe _ _ _ h1]
      by_cases h2 : skip.sum + a + b ≤ 8 * buf.length
      · rw [if_pos h2, if_pos (by omega), andThen_ok, andThen_ok, bitsAt_add _ _ _ _ h2, Nat.add_assoc]
      · rw [if_neg h2, if_neg (by omega), andThen_error, andThen_error]
    · rw [if_neg h1, if_neg (by omega), andThen_error, andThen_error]
  · rw [if_neg h, andThen_error, andThen_error]

/-- The fields of a CSBK-like word: 1 + 1 + 6 bits and then 5 + 11 bits crossing a byte boundary. -/
example : fromBytes (do let _ ← readFields [1, 1]; readFields [6, 5, 11]) [0xBD, 0x12, 0x34] =
    .ok [0x3D, 2, 0x234] := by
  rw [C01_fields]; decide
example : fromBytes (do let _ ← readFields [1, 1]; readFields [6, 5, 12]) [0xBD, 0x12, 0x34] = .error .eof := by
  rw [C01_fields]; decide

/-! ### C02 -/

/-- One operation on the modelled stream. -/
def Spec.Op.run : Op → Rd Val
  | .bits n => do return .number (← readBitsIntBe n)
  | .bytes n => do return .bytes (← readBytesInt n)
  | .full => do return .bytes (← readBytesFull)
  | .align => do alignToByte; return .unit
  | .isEof => do return .flag (← Dmr.isEof)

/-- The results of a history of operations on one stream, failed ones included, together with the position
after each of them. -/
def runOps (s : Stream) : List Op → List (Except PyErr Val × Stream)
  | [] => []
  | o :: os => let r := o.run s; r :: runOps r.2 os

/-- The results up to and including the first exception. -/
def untilError : List (Except PyErr Val × Stream) → List (Except PyErr Val)
  | [] => []
  | (.ok v, _) :: rs => .ok v :: untilError rs
  | (.error e, _) :: _ => [.error e]

theorem eval_op (buf : Bytes) (p : Nat) (hp : p ≤ 8 * buf.length) (o : Op) :
    Rd.eval o.run (Stream.at buf p) =
      match step buf p o with
      | .ok (v, p') => .ok (v, Stream.at buf p')
      | .error e => .error e := by
  cases o with
  | bits n =>
    simp only [Op.run, eval_bind, eval_readBitsIntBe _ _ _ hp, step, length_bitsOf]
    by_cases h : p + n ≤ 8 * buf.length
    · simp only [if_pos h, andThen_ok, eval_pure, bitsAt_eq _ _ _ h]
    · simp only [if_neg h, andThen_error]
  | bytes n =>
    simp only [Op.run, eval_bind, eval_readBytesInt _ _ _ hp, step, andThen_ite, andThen_ok, andThen_error, eval_pure, slice]
    split
    · rfl
    · split <;> rfl
  | full => simp only [Op.run, eval_bind, eval_readBytesFull _ _ hp, step, andThen_ok, eval_pure]
  | align => simp only [Op.run, eval_bind, eval_alignToByte, step, andThen_ok, eval_pure]
  | isEof =>
    simp only [Op.run, eval_bind, eval_isEof _ _ hp, step, andThen_ok, eval_pure, beq_eq_decide]

theorem step_le (buf : Bytes) (p : Nat) (hp : p ≤ 8 * buf.length) (o : Op) (v : Val) (p' : Nat)
    (h : step buf p o = .ok (v, p')) : p ≤ p' ∧ p' ≤ 8 * buf.length := by
  have hlen := length_bitsOf buf
  cases o <;> simp only [step] at h
  · split at h
    · cases h; omega
    · cases h
  · split at h
    · cases h
    · split at h
      · cases h; omega
      · cases h
  · cases h; omega
  · cases h; omega
  · cases h; omega

theorem untilError_runOps (buf : Bytes) (os : List Op) :
    ∀ p, p ≤ 8 * buf.length → untilError (runOps (Stream.at buf p) os) = history buf p os := by
  induction os with
  | nil => intro p _; rfl
  | cons o os ih =>
    intro p hp
    have he := eval_op buf p hp o
    have hs := step_le buf p hp o
    simp only [runOps, history]
    unfold Rd.eval at he
    rcases hr : o.run (Stream.at buf p) with ⟨_ | v, s'⟩ <;> rw [hr] at he <;>
      rcases hst : step buf p o with _ | ⟨v', p'⟩ <;> rw [hst] at he <;> simp only at he
    · cases he; rfl
    · cases he
    · cases he
    · cases he
      simp only [untilError]
      rw [ih p' (hs v p' hst).2]

/-- C02: on any input, any history of bit, byte, read-to-end, align and end-of-file operations returns what
the cursor specification says (bit reads: the next bits; byte reads: a contiguous slice starting at the next whole
byte, so that the unread bits of a partially consumed byte are dropped), up to the first exception. -/
theorem C02_history (buf : Bytes) (os : List Op) :
    untilError (runOps (Stream.new buf) os) = history buf 0 os := by
  rw [Stream.new_eq_at]; exact untilError_runOps buf os 0 (by omega)

/-- Facts kept by every operation, failed ones included. -/
structure Sane (buf : Bytes) (s : Stream) : Prop where
  same : s.buf = buf
  inside : s.pos ≤ buf.length

theorem sane_readBytesNotAligned {buf : Bytes} {s : Stream} (h : Sane buf s) (n : Nat) :
    Sane buf (readBytesNotAligned n s).2 ∧ s.pos ≤ (readBytesNotAligned n s).2.pos ∧
      ∀ v, (readBytesNotAligned n s).1 = .ok v → v = slice buf s.pos n := by
  obtain ⟨hs, hi⟩ := h
  rw [readBytesNotAligned_eq, hs]
  split
  · exact ⟨⟨rfl, by simp only; omega⟩, by simp only; omega, by intro v hv; cases hv; rfl⟩
  · exact ⟨⟨rfl, by simp only; omega⟩, by simp only; omega, by intro v hv; cases hv⟩

theorem sane_op {buf : Bytes} {s : Stream} (h : Sane buf s) (o : Op) :
    Sane buf (o.run s).2 ∧ s.pos ≤ (o.run s).2.pos ∧
      ∀ v, (o.run s).1 = .ok (.bytes v) → ∃ n, v = slice buf s.pos n := by
  have ⟨hs, hi⟩ := h
  cases o with
  | bits n =>
    have key : Sane buf (readBitsIntBe n s).2 ∧ s.pos ≤ (readBitsIntBe n s).2.pos := by
      unfold readBitsIntBe
      simp only
      split
      · generalize hl : ((-((n : Int) - (s.bitsLeft : Int))) % 8).toNat = left
        generalize ((((n : Int) - (s.bitsLeft : Int)) - 1) / 8 + 1).toNat = m
        have := sane_readBytesNotAligned (s := { s with bitsLeft := left }) ⟨hs, hi⟩ m
        split
        · rename_i heq; rw [heq] at this; exact ⟨this.1, this.2.1⟩
        · rename_i heq; rw [heq] at this; exact ⟨⟨this.1.same, this.1.inside⟩, this.2.1⟩
      · exact ⟨⟨hs, hi⟩, Nat.le_refl _⟩
    show Sane buf (Rd.bind (readBitsIntBe n) _ s).2 ∧ _ ≤ (Rd.bind (readBitsIntBe n) _ s).2.pos ∧
      ∀ v, (Rd.bind (readBitsIntBe n) _ s).1 = _ → _
    unfold Rd.bind
    split
    · rename_i heq; rw [heq] at key; exact ⟨key.1, key.2, by intro v hv; cases hv⟩
    · rename_i heq; rw [heq] at key; exact ⟨key.1, key.2, by intro v hv; cases hv⟩
  | bytes n =>
    have key := sane_readBytesNotAligned (s := { s with bits := 0, bitsLeft := 0 }) ⟨hs, hi⟩ n.toNat
    show Sane buf (Rd.bind (readBytesInt n) _ s).2 ∧ _ ≤ (Rd.bind (readBytesInt n) _ s).2.pos ∧
      ∀ v, (Rd.bind (readBytesInt n) _ s).1 = _ → _
    have e : readBytesInt n s = if n < 0 then (.error .value, { s with bits := 0, bitsLeft := 0 })
        else readBytesNotAligned n.toNat { s with bits := 0, bitsLeft := 0 } := by
      show (if n < 0 then _ else _ : Rd Bytes) _ = _
      split <;> rfl
    unfold Rd.bind
    rw [e]
    by_cases hn : n < 0
    · simp only [if_pos hn]
      exact ⟨⟨hs, hi⟩, Nat.le_refl _, by intro v hv; cases hv⟩
    · simp only [if_neg hn]
      split
      · rename_i heq; rw [heq] at key
        exact ⟨key.1, key.2.1, by intro v hv; cases hv; exact ⟨_, key.2.2 _ rfl⟩⟩
      · rename_i heq; rw [heq] at key
        exact ⟨key.1, key.2.1, by intro v hv; cases hv⟩
  | full =>
    refine ⟨⟨hs, ?_⟩, ?_, ?_⟩
    · show max s.pos s.buf.length ≤ _
      rw [hs]; omega
    · show _ ≤ max s.pos s.buf.length
      omega
    · intro v hv
      have : v = s.buf.drop s.pos := by
        have h' : (Except.ok (Val.bytes (s.buf.drop s.pos)) : Except PyErr Val) = .ok (.bytes v) := hv
        cases h'; rfl
      exact ⟨buf.length, by rw [this, hs, slice, List.take_of_length_le (by simp)]⟩
  | align => exact ⟨⟨hs, hi⟩, Nat.le_refl _, by intro v hv; cases hv⟩
  | isEof => exact ⟨⟨hs, hi⟩, Nat.le_refl _, by intro v hv; cases hv⟩

/-- C02: in every history, even when operations fail and reading goes on, the position never exceeds the
size, never moves backwards, the contents never change, and whatever a byte read returns is the contiguous slice of the input
at the position. -/
theorem C02_bounds (buf : Bytes) (os : List Op) :
    ∀ (i : Nat) (r : Except PyErr Val × Stream), (runOps (Stream.new buf) os)[i]? = some r →
      r.2.buf = buf ∧ r.2.pos ≤ buf.length ∧
      (∀ prev, 0 < i → (runOps (Stream.new buf) os)[i - 1]? = some prev → prev.2.pos ≤ r.2.pos ∧
        ∀ v, r.1 = .ok (.bytes v) → ∃ n, v = slice buf prev.2.pos n) := by
  suffices H : ∀ (os : List Op) (s : Stream), Sane buf s → ∀ (i : Nat) r, (runOps s os)[i]? = some r →
      r.2.buf = buf ∧ r.2.pos ≤ buf.length ∧
      (∀ prev, 0 < i → (runOps s os)[i - 1]? = some prev → prev.2.pos ≤ r.2.pos ∧
        ∀ v, r.1 = .ok (.bytes v) → ∃ n, v = slice buf prev.2.pos n) from
    H os (Stream.new buf) ⟨rfl, Nat.zero_le _⟩
  intro os
  induction os with
  | nil => intro s _ i r h; simp [runOps] at h
  | cons o os ih =>
    intro s hs i r h
    have h1 := sane_op hs o
    rcases i with _ | i
    · simp only [runOps, List.getElem?_cons_zero, Option.some.injEq] at h
      subst h
      exact ⟨h1.1.same, h1.1.inside, fun _ h _ => absurd h (by omega)⟩
    · simp only [runOps, List.getElem?_cons_succ] at h
      have h2 := ih _ h1.1 i r h
      refine ⟨h2.1, h2.2.1, ?_⟩
      intro prev _ hp
      rcases i with _ | i
      · simp only [runOps, Nat.zero_add, Nat.sub_self, List.getElem?_cons_zero, Option.some.injEq] at hp
        subst hp
        rcases os with _ | ⟨o', os⟩
        · simp [runOps] at h
        · simp only [runOps, List.getElem?_cons_zero, Option.some.injEq] at h
          subst h
          have h3 := sane_op h1.1 o'
          exact ⟨h3.2.1, h3.2.2⟩
      · exact h2.2.2 prev (by omega) (by simpa [runOps] using hp)

example := C02_bounds [0xE1, 2, 3, 4, 5] [.bits 3, .bytes 2, .full] 1 _ rfl

/-- Three bits, then two bytes (the other five bits of the first byte are dropped), then the rest. -/
example : untilError (runOps (Stream.new [0xE1, 2, 3, 4, 5]) [.bits 3, .bytes 2, .isEof, .bits 4, .full, .isEof, .bits 1]) =
    [.ok (.number 7), .ok (.bytes [2, 3]), .ok (.flag false), .ok (.number 0), .ok (.bytes [5]), .ok (.flag true), .error .eof] := by
  rw [C02_history]; decide

end Dmr
