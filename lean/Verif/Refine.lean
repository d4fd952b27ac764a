import Verif.Runtime
import Verif.Spec.Parse
import Verif.Attr
import Mathlib.Tactic.Ring
import Mathlib.Tactic.SplitIfs
import Mathlib.Tactic.Tauto
/-
The stream refinement: a stream that has consumed `p` bits of `buf` is in the canonical state
`Stream.at buf p`; every primitive maps canonical states to canonical states and returns what the
specification vocabulary (`bitsAt`, `slice`, `u8`, ...) says.
-/

namespace Dmr

/-! ### Arithmetic of `beVal`, `bitsAt`, `slice` -/

theorem beVal_append (a b : Bytes) : beVal (a ++ b) = beVal a * 256 ^ b.length + beVal b := by
  induction a with
  | nil => simp [beVal]
  | cons x xs ih =>
    simp only [List.cons_append, beVal, ih, List.length_append, Nat.pow_add]
    ring

theorem beVal_lt (a : Bytes) : beVal a < 256 ^ a.length := by
  induction a with
  | nil => simp [beVal]
  | cons x xs ih =>
    have hx : x.toNat ≤ 255 := by have := x.toNat_lt; omega
    simp only [beVal, List.length_cons, Nat.pow_succ]
    have : x.toNat * 256 ^ xs.length ≤ 255 * 256 ^ xs.length := Nat.mul_le_mul_right _ hx
    omega

theorem pow256 (n : Nat) : 256 ^ n = 2 ^ (8 * n) := by
  rw [Nat.pow_mul]

theorem beVal_lt' (a : Bytes) : beVal a < 2 ^ (8 * a.length) := by
  rw [← pow256]; exact beVal_lt a

theorem bitsAt_lt (buf : Bytes) (off w : Nat) : bitsAt buf off w < 2 ^ w :=
  Nat.mod_lt _ (Nat.two_pow_pos w)

theorem bitsAt_zero (buf : Bytes) (off : Nat) : bitsAt buf off 0 = 0 := by
  simp [bitsAt, Nat.mod_one]

/-- Consecutive fields concatenate. -/
theorem bitsAt_add (buf : Bytes) (p a b : Nat) (h : p + a + b ≤ 8 * buf.length) :
    bitsAt buf p (a + b) = bitsAt buf p a * 2 ^ b + bitsAt buf (p + a) b := by
  unfold bitsAt
  generalize beVal buf = V
  have h1 : 8 * buf.length - (p + a) = (8 * buf.length - (p + (a + b))) + b := by omega
  have h2 : 8 * buf.length - (p + a + b) = 8 * buf.length - (p + (a + b)) := by omega
  rw [h1, h2]
  generalize 8 * buf.length - (p + (a + b)) = m
  rw [Nat.pow_add 2 m b, ← Nat.div_div_eq_div_mul]
  generalize V / 2 ^ m = W
  rw [Nat.add_comm a b, Nat.pow_add, Nat.mod_mul]
  ring

theorem bitsAt_div (buf : Bytes) (p a b : Nat) (h : p + a + b ≤ 8 * buf.length) :
    bitsAt buf p (a + b) / 2 ^ b = bitsAt buf p a := by
  rw [bitsAt_add buf p a b h, Nat.add_comm, Nat.add_mul_div_right _ _ (Nat.two_pow_pos b),
    Nat.div_eq_of_lt (bitsAt_lt _ _ _), Nat.zero_add]

theorem bitsAt_mod (buf : Bytes) (p a b : Nat) (h : p + a + b ≤ 8 * buf.length) :
    bitsAt buf p (a + b) % 2 ^ b = bitsAt buf (p + a) b := by
  rw [bitsAt_add buf p a b h, Nat.add_comm, Nat.add_mul_mod_self_right,
    Nat.mod_eq_of_lt (bitsAt_lt _ _ _)]

theorem length_slice (buf : Bytes) (off n : Nat) (h : off + n ≤ buf.length) :
    (slice buf off n).length = n := by
  simp [slice]; omega

/-- The big-endian value of a byte slice is the corresponding bit field. -/
theorem beVal_slice (buf : Bytes) (q n : Nat) (h : q + n ≤ buf.length) :
    beVal (slice buf q n) = bitsAt buf (8 * q) (8 * n) := by
  have e : buf = buf.take q ++ (slice buf q n ++ buf.drop (q + n)) := by
    rw [slice, ← List.drop_drop, List.take_append_drop, List.take_append_drop]
  have hl := length_slice buf q n h
  have hd : (buf.drop (q + n)).length = buf.length - (q + n) := by simp
  unfold bitsAt
  have hv : beVal buf = beVal (buf.take q) * 256 ^ (n + (buf.length - (q + n))) +
      (beVal (slice buf q n) * 256 ^ (buf.length - (q + n)) + beVal (buf.drop (q + n))) := by
    conv_lhs => rw [e]
    rw [beVal_append, beVal_append, List.length_append, hl, hd]
  have hsh : 8 * buf.length - (8 * q + 8 * n) = 8 * (buf.length - (q + n)) := by omega
  have hlt : beVal (buf.drop (q + n)) < 2 ^ (8 * (buf.length - (q + n))) := by
    have := beVal_lt' (buf.drop (q + n)); rwa [hd] at this
  have hs : beVal (slice buf q n) < 2 ^ (8 * n) := by
    have := beVal_lt' (slice buf q n); rwa [hl] at this
  have hr : 8 * (n + (buf.length - (q + n))) = 8 * n + 8 * (buf.length - (q + n)) := by ring
  rw [hv, hsh, pow256, pow256, hr, Nat.pow_add]
  generalize beVal (slice buf q n) = S at *
  generalize beVal (buf.drop (q + n)) = D at *
  generalize beVal (buf.take q) = A at *
  generalize 8 * (buf.length - (q + n)) = m at *
  have : A * (2 ^ (8 * n) * 2 ^ m) + (S * 2 ^ m + D) = D + (S + A * 2 ^ (8 * n)) * 2 ^ m := by ring
  rw [this, Nat.add_mul_div_right _ _ (Nat.two_pow_pos m), Nat.div_eq_of_lt hlt, Nat.zero_add,
    Nat.add_mul_mod_self_right, Nat.mod_eq_of_lt hs]

/-! ### Canonical states -/

/-- The stream over `buf` after exactly `p` bits have been consumed: the file position is the first
byte not yet fetched, the bit buffer holds the unread bits of the last fetched byte. -/
def Stream.at (buf : Bytes) (p : Nat) : Stream :=
  { buf := buf, pos := (p + 7) / 8, bits := bitsAt buf p ((8 - p % 8) % 8), bitsLeft := (8 - p % 8) % 8 }

theorem Stream.new_eq_at (buf : Bytes) : Stream.new buf = Stream.at buf 0 := by
  simp [Stream.new, Stream.at, bitsAt_zero]

theorem Stream.at_byte (buf : Bytes) (q : Nat) :
    Stream.at buf (8 * q) = { buf := buf, pos := q, bits := 0, bitsLeft := 0 } := by
  have h1 : (8 * q + 7) / 8 = q := by omega
  have h2 : (8 - 8 * q % 8) % 8 = 0 := by omega
  simp [Stream.at, h1, bitsAt_zero]

/-- Result and final state of a reader, forgetting the state in which it failed. -/
def Rd.eval (r : Rd α) (s : Stream) : Except PyErr (α × Stream) :=
  match r s with
  | (.ok a, s') => .ok (a, s')
  | (.error e, _) => .error e

/-- Sequencing of evaluated readers. -/
def andThen (x : Except PyErr (α × Stream)) (k : α → Stream → Except PyErr (β × Stream)) :
    Except PyErr (β × Stream) :=
  match x with
  | .ok (a, s) => k a s
  | .error e => .error e

theorem andThen_ok (a : α) (s : Stream) (k : α → Stream → Except PyErr (β × Stream)) :
    andThen (.ok (a, s)) k = k a s := rfl
theorem andThen_error (e : PyErr) (k : α → Stream → Except PyErr (β × Stream)) :
    andThen (.error e) k = .error e := rfl
theorem andThen_ite (c : Prop) [Decidable c] (x y : Except PyErr (α × Stream))
    (k : α → Stream → Except PyErr (β × Stream)) :
    andThen (if c then x else y) k = if c then andThen x k else andThen y k := by
  split <;> rfl

theorem eval_pure (a : α) (s : Stream) : Rd.eval (Pure.pure a) s = .ok (a, s) := rfl
theorem eval_pure' (a : α) (s : Stream) : Rd.eval (Rd.pure a) s = .ok (a, s) := rfl
theorem eval_throw (e : PyErr) (s : Stream) :
    Rd.eval (Rd.throw e : Rd α) s = .error e := rfl
theorem eval_bind (r : Rd α) (k : α → Rd β) (s : Stream) :
    Rd.eval (r >>= k) s = andThen (Rd.eval r s) (fun a s' => Rd.eval (k a) s') := by
  show Rd.eval (Rd.bind r k) s = _
  unfold Rd.eval Rd.bind
  rcases r s with ⟨_ | _, _⟩ <;> rfl
theorem eval_ite (c : Prop) [Decidable c] (r r' : Rd α) (s : Stream) :
    Rd.eval (if c then r else r') s = if c then Rd.eval r s else Rd.eval r' s := by
  split <;> rfl
theorem eval_map (r : Rd α) (f : α → β) (s : Stream) :
    Rd.eval (f <$> r) s = andThen (Rd.eval r s) (fun a s' => .ok (f a, s')) := by
  show Rd.eval (Rd.bind r (fun a => Rd.pure (f a))) s = _
  unfold Rd.eval Rd.bind
  rcases r s with ⟨_ | _, _⟩ <;> rfl

theorem fromBytes_eq (r : Rd α) (buf : Bytes) :
    fromBytes r buf = (Rd.eval r (Stream.at buf 0)).map Prod.fst := by
  rw [← Stream.new_eq_at]
  unfold fromBytes Rd.eval
  rcases r (Stream.new buf) with ⟨_ | _, _⟩ <;> rfl

/-! ### Primitives on canonical states -/

theorem orBytes_foldl (chunk : Bytes) (acc : Nat) :
    chunk.foldl (fun res b => (res <<< 8) ||| b.toNat) acc = acc * 256 ^ chunk.length + beVal chunk := by
  induction chunk generalizing acc with
  | nil => simp [beVal]
  | cons x xs ih =>
    rw [List.foldl_cons, ih, ← Nat.shiftLeft_add_eq_or_of_lt (by have := x.toNat_lt; omega : x.toNat < 2 ^ 8),
      Nat.shiftLeft_eq]
    simp only [beVal, List.length_cons, Nat.pow_succ]
    ring

theorem orBytes_eq (chunk : Bytes) : orBytes chunk = beVal chunk := by
  rw [orBytes, orBytes_foldl]; simp

theorem readBytesNotAligned_eq (s : Stream) (n : Nat) :
    readBytesNotAligned n s =
      if s.pos + n ≤ s.buf.length ∨ n = 0 then (.ok (slice s.buf s.pos n), { s with pos := s.pos + n })
      else (.error .eof, { s with pos := max s.pos s.buf.length }) := by
  unfold readBytesNotAligned slice
  by_cases h : s.pos + n ≤ s.buf.length ∨ n = 0
  · have : min n (s.buf.length - s.pos) = n := by omega
    simp [h, this]
  · have h1 : min n (s.buf.length - s.pos) = s.buf.length - s.pos := by omega
    have h2 : ¬ n ≤ s.buf.length - s.pos := by omega
    have h3 : s.pos + (s.buf.length - s.pos) = max s.pos s.buf.length := by omega
    simp [h, h1, h2, h3]

/-- `read_bits_int_be(n)` returns the next `n` bits, most significant first, or EOFError when fewer
than `n` bits are left. -/
theorem eval_readBitsIntBe (buf : Bytes) (p n : Nat) (hp : p ≤ 8 * buf.length) :
    Rd.eval (readBitsIntBe n) (Stream.at buf p) =
      if p + n ≤ 8 * buf.length then .ok (bitsAt buf p n, Stream.at buf (p + n)) else .error .eof := by
  have hq : 8 * ((p + 7) / 8) = p + (8 - p % 8) % 8 := by omega
  by_cases hn : n ≤ (8 - p % 8) % 8
  · have h1 : ¬ ((n : Int) - (((8 - p % 8) % 8 : Nat) : Int) > 0) := by omega
    have h2 : (-((n : Int) - (((8 - p % 8) % 8 : Nat) : Int)) % 8).toNat = (8 - p % 8) % 8 - n := by omega
    have h3 : (-((n : Int) - (((8 - p % 8) % 8 : Nat) : Int))).toNat = (8 - p % 8) % 8 - n := by omega
    have h4 : p + n ≤ 8 * buf.length := by omega
    have h5 : (8 - p % 8) % 8 = n + ((8 - p % 8) % 8 - n) := by omega
    have h6 : (8 - (p + n) % 8) % 8 = (8 - p % 8) % 8 - n := by omega
    have h7 : (p + n + 7) / 8 = (p + 7) / 8 := by omega
    have h8 : p + n + ((8 - p % 8) % 8 - n) ≤ 8 * buf.length := by omega
    unfold Rd.eval readBitsIntBe Stream.at
    simp only [h1, if_false, h2, h3, h4, if_true, h6, h7]
    rw [Nat.shiftRight_eq_div_pow, Nat.shiftLeft_eq, Nat.one_mul, Nat.and_two_pow_sub_one_eq_mod]
    generalize (8 - p % 8) % 8 - n = d at *
    rw [h5, bitsAt_div _ _ _ _ h8, bitsAt_mod _ _ _ _ h8]
  · have h1 : ((n : Int) - (((8 - p % 8) % 8 : Nat) : Int) > 0) := by omega
    obtain ⟨k, hk, hk0⟩ : ∃ k, n = (8 - p % 8) % 8 + k ∧ 0 < k := ⟨n - (8 - p % 8) % 8, by omega, by omega⟩
    have h9 : (n : Int) - (((8 - p % 8) % 8 : Nat) : Int) = (k : Int) := by omega
    have h2 : ((-(k : Int)) % 8).toNat = (8 - k % 8) % 8 := by omega
    have h3 : ((((k : Int) - 1) / 8) + 1).toNat = (k + 7) / 8 := by omega
    have h4 : (8 - (p + n) % 8) % 8 = (8 - k % 8) % 8 := by omega
    have h5 : (p + n + 7) / 8 = (p + 7) / 8 + (k + 7) / 8 := by omega
    have h6 : ((p + 7) / 8 + (k + 7) / 8 ≤ buf.length ∨ (k + 7) / 8 = 0) ↔ p + n ≤ 8 * buf.length := by
      omega
    unfold Rd.eval readBitsIntBe Stream.at
    simp only [h9, h2, h3, h4, h5]
    rw [if_pos (by omega : (k : Int) > 0), readBytesNotAligned_eq]
    by_cases hc : p + n ≤ 8 * buf.length
    · rw [if_pos hc, if_pos (h6.mpr hc)]
      have h10 : 8 * ((k + 7) / 8) = k + (8 - k % 8) % 8 := by omega
      have h11 : (p + 7) / 8 + (k + 7) / 8 ≤ buf.length := by omega
      have h12 : 8 * ((p + 7) / 8) + k + (8 - k % 8) % 8 ≤ 8 * buf.length := by omega
      simp only [orBytes_eq]
      rw [beVal_slice _ _ _ h11, h10, Nat.shiftRight_eq_div_pow, bitsAt_div _ _ _ _ h12, Nat.shiftLeft_eq 1,
        Nat.one_mul, Nat.and_two_pow_sub_one_eq_mod, bitsAt_mod _ _ _ _ h12, Int.toNat_natCast,
        Nat.or_comm, ← Nat.shiftLeft_add_eq_or_of_lt (bitsAt_lt _ _ _), Nat.shiftLeft_eq, hk, hq,
        ← bitsAt_add _ _ _ _ (by omega)]
      have h13 : p + (8 - p % 8) % 8 + k = p + ((8 - p % 8) % 8 + k) := by omega
      rw [h13]
    · rw [if_neg hc, if_neg (by rw [h6]; exact hc)]

theorem eval_alignToByte (buf : Bytes) (p : Nat) :
    Rd.eval alignToByte (Stream.at buf p) = .ok ((), Stream.at buf (8 * ((p + 7) / 8))) := by
  rw [Stream.at_byte]; rfl

theorem eval_readBytes (buf : Bytes) (p n : Nat) (hp : p ≤ 8 * buf.length) :
    Rd.eval (readBytes n) (Stream.at buf p) =
      if (p + 7) / 8 + n ≤ buf.length then
        .ok (slice buf ((p + 7) / 8) n, Stream.at buf (8 * ((p + 7) / 8 + n)))
      else .error .eof := by
  have hc : ((p + 7) / 8 + n ≤ buf.length ∨ n = 0) ↔ (p + 7) / 8 + n ≤ buf.length := by omega
  simp only [readBytes, eval_bind, eval_alignToByte, andThen_ok, Stream.at_byte]
  unfold Rd.eval
  rw [readBytesNotAligned_eq]
  by_cases h : (p + 7) / 8 + n ≤ buf.length
  · rw [if_pos (hc.mpr h), if_pos h]
  · rw [if_neg (fun h' => h (hc.mp h')), if_neg h]

theorem eval_readBytesInt (buf : Bytes) (p : Nat) (n : Int) (hp : p ≤ 8 * buf.length) :
    Rd.eval (readBytesInt n) (Stream.at buf p) =
      if n < 0 then .error .value
      else if (p + 7) / 8 + n.toNat ≤ buf.length then
        .ok (slice buf ((p + 7) / 8) n.toNat, Stream.at buf (8 * ((p + 7) / 8 + n.toNat)))
      else .error .eof := by
  have h := eval_readBytes buf p n.toNat hp
  simp only [readBytes, eval_bind, eval_alignToByte, andThen_ok] at h
  simp only [readBytesInt, eval_bind, eval_alignToByte, andThen_ok, eval_ite, eval_throw, h]

theorem eval_readBytesFull (buf : Bytes) (p : Nat) (hp : p ≤ 8 * buf.length) :
    Rd.eval readBytesFull (Stream.at buf p) =
      .ok (buf.drop ((p + 7) / 8), Stream.at buf (8 * buf.length)) := by
  have : max ((p + 7) / 8) buf.length = buf.length := by omega
  simp only [readBytesFull, eval_bind, eval_alignToByte, andThen_ok]
  simp only [Stream.at_byte, Rd.eval, readRest, this]

theorem eval_isEof (buf : Bytes) (p : Nat) (hp : p ≤ 8 * buf.length) :
    Rd.eval isEof (Stream.at buf p) = .ok (decide (p = 8 * buf.length), Stream.at buf p) := by
  show Except.ok ((if (8 - p % 8) % 8 > 0 then false else decide (buf.length ≤ (p + 7) / 8)), _) = _
  congr 2
  by_cases h : (8 - p % 8) % 8 > 0
  · rw [if_pos h, eq_comm, decide_eq_false_iff_not]; omega
  · rw [if_neg h, decide_eq_decide]; omega

theorem eval_posIo (buf : Bytes) (p : Nat) :
    Rd.eval posIo (Stream.at buf p) = .ok ((p + 7) / 8, Stream.at buf p) := rfl
theorem eval_sizeIo (buf : Bytes) (p : Nat) :
    Rd.eval sizeIo (Stream.at buf p) = .ok (buf.length, Stream.at buf p) := rfl
theorem eval_loopFuel (buf : Bytes) (p : Nat) :
    Rd.eval loopFuel (Stream.at buf p) = .ok (buf.length + 2, Stream.at buf p) := rfl
/-- Seeking from a byte boundary. -/
theorem eval_seekIo (buf : Bytes) (q n : Nat) :
    Rd.eval (seekIo n) (Stream.at buf (8 * q)) = .ok ((), Stream.at buf (8 * n)) := by
  rw [Stream.at_byte, Stream.at_byte]; rfl

theorem u8_slice (buf : Bytes) (q n i : Nat) (h : i < n) : u8 (slice buf q n) i = u8 buf (q + i) := by
  simp [u8, slice, h]

theorem eval_readFlag (buf : Bytes) (p : Nat) (hp : p ≤ 8 * buf.length) :
    Rd.eval readFlag (Stream.at buf p) =
      if p + 1 ≤ 8 * buf.length then .ok (flagAt buf p, Stream.at buf (p + 1)) else .error .eof := by
  have h : (bitsAt buf p 1 != 0) = flagAt buf p := by
    have := bitsAt_lt buf p 1
    unfold flagAt
    rcases (by omega : bitsAt buf p 1 = 0 ∨ bitsAt buf p 1 = 1) with h | h <;> simp [h]
  simp [readFlag, eval_bind, eval_readBitsIntBe _ _ _ hp, andThen_ite, andThen_ok, andThen_error, eval_pure, h]

theorem eval_readU1 (buf : Bytes) (p : Nat) (hp : p ≤ 8 * buf.length) :
    Rd.eval readU1 (Stream.at buf p) =
      if (p + 7) / 8 + 1 ≤ buf.length then
        .ok (u8 buf ((p + 7) / 8), Stream.at buf (8 * ((p + 7) / 8 + 1)))
      else .error .eof := by
  simp [readU1, eval_bind, eval_readBytes _ _ _ hp, andThen_ite, andThen_ok, andThen_error, eval_pure, u8_slice]

theorem eval_readU2be (buf : Bytes) (p : Nat) (hp : p ≤ 8 * buf.length) :
    Rd.eval readU2be (Stream.at buf p) =
      if (p + 7) / 8 + 2 ≤ buf.length then
        .ok (u16be buf ((p + 7) / 8), Stream.at buf (8 * ((p + 7) / 8 + 2)))
      else .error .eof := by
  simp [readU2be, eval_bind, eval_readBytes _ _ _ hp, andThen_ite, andThen_ok, andThen_error, eval_pure,
    u8_slice, u16be]

theorem eval_readU2le (buf : Bytes) (p : Nat) (hp : p ≤ 8 * buf.length) :
    Rd.eval readU2le (Stream.at buf p) =
      if (p + 7) / 8 + 2 ≤ buf.length then
        .ok (u16le buf ((p + 7) / 8), Stream.at buf (8 * ((p + 7) / 8 + 2)))
      else .error .eof := by
  simp [readU2le, eval_bind, eval_readBytes _ _ _ hp, andThen_ite, andThen_ok, andThen_error, eval_pure,
    u8_slice, u16le]

theorem eval_readS2be (buf : Bytes) (p : Nat) (hp : p ≤ 8 * buf.length) :
    Rd.eval readS2be (Stream.at buf p) =
      if (p + 7) / 8 + 2 ≤ buf.length then
        .ok (s16be buf ((p + 7) / 8), Stream.at buf (8 * ((p + 7) / 8 + 2)))
      else .error .eof := by
  simp [readS2be, eval_bind, eval_readBytes _ _ _ hp, andThen_ite, andThen_ok, andThen_error, eval_pure,
    u8_slice, u16be, s16be]

theorem eval_readU4be (buf : Bytes) (p : Nat) (hp : p ≤ 8 * buf.length) :
    Rd.eval readU4be (Stream.at buf p) =
      if (p + 7) / 8 + 4 ≤ buf.length then
        .ok (u32be buf ((p + 7) / 8), Stream.at buf (8 * ((p + 7) / 8 + 4)))
      else .error .eof := by
  simp [readU4be, eval_bind, eval_readBytes _ _ _ hp, andThen_ite, andThen_ok, andThen_error, eval_pure,
    u8_slice, u32be]

theorem eval_readU4le (buf : Bytes) (p : Nat) (hp : p ≤ 8 * buf.length) :
    Rd.eval readU4le (Stream.at buf p) =
      if (p + 7) / 8 + 4 ≤ buf.length then
        .ok (u32le buf ((p + 7) / 8), Stream.at buf (8 * ((p + 7) / 8 + 4)))
      else .error .eof := by
  simp [readU4le, eval_bind, eval_readBytes _ _ _ hp, andThen_ite, andThen_ok, andThen_error, eval_pure,
    u8_slice, u32le]

theorem eval_validateEq [DecidableEq α] (v e : α) (path : String) (s : Stream) :
    Rd.eval (validateEq v e path) s = if v = e then .ok ((), s) else .error (.validation path) := by
  unfold validateEq; split <;> rfl

theorem eval_optionally (c : Bool) (r : Rd α) (s : Stream) :
    Rd.eval (optionally c r) s =
      if c = true then andThen (Rd.eval r s) (fun a s' => .ok (some a, s')) else .ok (none, s) := by
  unfold optionally; cases c <;> simp [eval_bind, eval_pure]

theorem eval_asEnum (E : Type) [PyEnum E] (r : Rd Nat) (s : Stream) :
    Rd.eval (asEnum E r) s = andThen (Rd.eval r s) (fun v s' => .ok (resolveEnum E v, s')) := by
  simp [asEnum, eval_bind, eval_pure]

/-! ### Symbolic execution rules (bind form, applied outside-in)

`simp (disch := omega) only [rd]` runs a reader on `Stream.at buf p` and leaves a cascade of
`if <enough bytes> then ... else EOFError`. -/

section rules
variable {α β γ : Type}

@[rd ↓] theorem b_assoc (r : Rd α) (k : α → Rd β) (k' : β → Rd γ) (s : Stream) :
    Rd.eval ((r >>= k) >>= k') s = Rd.eval (r >>= fun a => k a >>= k') s := by
  simp only [eval_bind]
  rcases Rd.eval r s with _ | ⟨_, _⟩ <;> rfl
@[rd ↓] theorem b_pure (a : α) (k : α → Rd β) (s : Stream) :
    Rd.eval (Pure.pure a >>= k) s = Rd.eval (k a) s := rfl
@[rd ↓] theorem b_pure' (a : α) (k : α → Rd β) (s : Stream) :
    Rd.eval (Rd.pure a >>= k) s = Rd.eval (k a) s := rfl
@[rd ↓] theorem b_throw (e : PyErr) (k : α → Rd β) (s : Stream) :
    Rd.eval (Rd.throw e >>= k) s = .error e := rfl
@[rd ↓] theorem b_ite (c : Prop) [Decidable c] (r r' : Rd α) (k : α → Rd β) (s : Stream) :
    Rd.eval ((if c then r else r') >>= k) s = if c then Rd.eval (r >>= k) s else Rd.eval (r' >>= k) s := by
  split <;> rfl
@[rd ↓] theorem b_optionally (c : Bool) (r : Rd α) (k : Option α → Rd β) (s : Stream) :
    Rd.eval (optionally c r >>= k) s =
      if c = true then Rd.eval (r >>= fun a => k (some a)) s else Rd.eval (k none) s := by
  cases c
  · rfl
  · simp only [optionally, if_true, b_assoc]; rfl
@[rd ↓] theorem b_asEnum (E : Type) [PyEnum E] (r : Rd Nat) (k : EnumVal E → Rd β) (s : Stream) :
    Rd.eval (asEnum E r >>= k) s = Rd.eval (r >>= fun v => k (resolveEnum E v)) s := by
  simp only [asEnum, b_assoc]; rfl
@[rd ↓] theorem b_validateEq [DecidableEq α] (v e : α) (path : String) (k : Unit → Rd β) (s : Stream) :
    Rd.eval (validateEq v e path >>= k) s =
      if v = e then Rd.eval (k ()) s else .error (.validation path) := by
  unfold validateEq; split <;> rfl
@[rd ↓] theorem b_decodeWith (codec : Bytes → Option PyStr) (r : Rd Bytes) (k : PyStr → Rd β) (s : Stream) :
    Rd.eval (decodeWith codec r >>= k) s =
      Rd.eval (r >>= fun b => match codec b with | some t => k t | none => Rd.throw .unicode) s := by
  simp only [decodeWith, b_assoc]
  congr 2; funext b
  cases codec b <;> rfl
@[rd ↓] theorem e_decodeWith (codec : Bytes → Option PyStr) (r : Rd Bytes) (s : Stream) :
    Rd.eval (decodeWith codec r) s =
      Rd.eval (r >>= fun b => match codec b with | some t => Pure.pure t | none => Rd.throw .unicode) s := rfl
/-- The continuation of a text field: either the decoded text, or UnicodeDecodeError. -/
@[rd ↓] theorem e_matchText (o : Option PyStr) (k : PyStr → Rd β) (s : Stream) :
    Rd.eval (match o with | some t => k t | none => Rd.throw .unicode) s =
      decoded o (fun t => Rd.eval (k t) s) := by
  cases o <;> rfl

/-- Generic rule: from a description of a sub-reader to the rule for the sub-reader followed by more. -/
theorem b_of_eval {r : Rd α} {s : Stream} {x : Except PyErr (α × Stream)} (h : Rd.eval r s = x)
    (k : α → Rd β) : Rd.eval (r >>= k) s = andThen x (fun a s' => Rd.eval (k a) s') := by
  rw [eval_bind, h]

variable (buf : Bytes) (p : Nat)

@[rd ↓] theorem b_alignToByte (k : Unit → Rd β) :
    Rd.eval (alignToByte >>= k) (Stream.at buf p) = Rd.eval (k ()) (Stream.at buf (8 * ((p + 7) / 8))) := by
  simp only [eval_bind, eval_alignToByte, andThen_ok]
@[rd ↓] theorem b_posIo (k : Nat → Rd β) :
    Rd.eval (posIo >>= k) (Stream.at buf p) = Rd.eval (k ((p + 7) / 8)) (Stream.at buf p) := rfl
@[rd ↓] theorem b_sizeIo (k : Nat → Rd β) :
    Rd.eval (sizeIo >>= k) (Stream.at buf p) = Rd.eval (k buf.length) (Stream.at buf p) := rfl
@[rd ↓] theorem b_loopFuel (k : Nat → Rd β) :
    Rd.eval (loopFuel >>= k) (Stream.at buf p) = Rd.eval (k (buf.length + 2)) (Stream.at buf p) := rfl
@[rd ↓] theorem b_seekIo (n : Nat) (k : Unit → Rd β) (h8 : p % 8 = 0) :
    Rd.eval (seekIo n >>= k) (Stream.at buf p) = Rd.eval (k ()) (Stream.at buf (8 * n)) := by
  obtain ⟨q, rfl⟩ : ∃ q, p = 8 * q := ⟨p / 8, by omega⟩
  simp only [eval_bind, eval_seekIo, andThen_ok]

variable (hp : p ≤ 8 * buf.length)
include hp

@[rd ↓] theorem b_isEof (k : Bool → Rd β) :
    Rd.eval (isEof >>= k) (Stream.at buf p) =
      Rd.eval (k (decide (p = 8 * buf.length))) (Stream.at buf p) := by
  rw [eval_bind, eval_isEof buf p hp, andThen_ok]
@[rd ↓] theorem b_readBytesFull (k : Bytes → Rd β) :
    Rd.eval (readBytesFull >>= k) (Stream.at buf p) =
      Rd.eval (k (buf.drop ((p + 7) / 8))) (Stream.at buf (8 * buf.length)) := by
  rw [eval_bind, eval_readBytesFull buf p hp, andThen_ok]
@[rd ↓] theorem b_readBytes (n : Nat) (k : Bytes → Rd β) :
    Rd.eval (readBytes n >>= k) (Stream.at buf p) =
      if (p + 7) / 8 + n ≤ buf.length then
        Rd.eval (k (slice buf ((p + 7) / 8) n)) (Stream.at buf (8 * ((p + 7) / 8 + n)))
      else .error .eof := by
  rw [eval_bind, eval_readBytes buf p n hp, andThen_ite, andThen_ok, andThen_error]
@[rd ↓] theorem b_readBytesInt (n : Int) (k : Bytes → Rd β) :
    Rd.eval (readBytesInt n >>= k) (Stream.at buf p) =
      if n < 0 then .error .value
      else if (p + 7) / 8 + n.toNat ≤ buf.length then
        Rd.eval (k (slice buf ((p + 7) / 8) n.toNat)) (Stream.at buf (8 * ((p + 7) / 8 + n.toNat)))
      else .error .eof := by
  rw [eval_bind, eval_readBytesInt buf p n hp, andThen_ite, andThen_ite, andThen_ok, andThen_error, andThen_error]
@[rd ↓] theorem b_readBitsIntBe (n : Nat) (k : Nat → Rd β) :
    Rd.eval (readBitsIntBe n >>= k) (Stream.at buf p) =
      if p + n ≤ 8 * buf.length then Rd.eval (k (bitsAt buf p n)) (Stream.at buf (p + n))
      else .error .eof := by
  rw [eval_bind, eval_readBitsIntBe buf p n hp, andThen_ite, andThen_ok, andThen_error]
@[rd ↓] theorem b_readFlag (k : Bool → Rd β) :
    Rd.eval (readFlag >>= k) (Stream.at buf p) =
      if p + 1 ≤ 8 * buf.length then Rd.eval (k (flagAt buf p)) (Stream.at buf (p + 1))
      else .error .eof := by
  rw [eval_bind, eval_readFlag buf p hp, andThen_ite, andThen_ok, andThen_error]
@[rd ↓] theorem b_readU1 (k : Nat → Rd β) :
    Rd.eval (readU1 >>= k) (Stream.at buf p) =
      if (p + 7) / 8 + 1 ≤ buf.length then
        Rd.eval (k (u8 buf ((p + 7) / 8))) (Stream.at buf (8 * ((p + 7) / 8 + 1)))
      else .error .eof := by
  rw [eval_bind, eval_readU1 buf p hp, andThen_ite, andThen_ok, andThen_error]
@[rd ↓] theorem b_readU2be (k : Nat → Rd β) :
    Rd.eval (readU2be >>= k) (Stream.at buf p) =
      if (p + 7) / 8 + 2 ≤ buf.length then
        Rd.eval (k (u16be buf ((p + 7) / 8))) (Stream.at buf (8 * ((p + 7) / 8 + 2)))
      else .error .eof := by
  rw [eval_bind, eval_readU2be buf p hp, andThen_ite, andThen_ok, andThen_error]
@[rd ↓] theorem b_readU2le (k : Nat → Rd β) :
    Rd.eval (readU2le >>= k) (Stream.at buf p) =
      if (p + 7) / 8 + 2 ≤ buf.length then
        Rd.eval (k (u16le buf ((p + 7) / 8))) (Stream.at buf (8 * ((p + 7) / 8 + 2)))
      else .error .eof := by
  rw [eval_bind, eval_readU2le buf p hp, andThen_ite, andThen_ok, andThen_error]
@[rd ↓] theorem b_readS2be (k : Int → Rd β) :
    Rd.eval (readS2be >>= k) (Stream.at buf p) =
      if (p + 7) / 8 + 2 ≤ buf.length then
        Rd.eval (k (s16be buf ((p + 7) / 8))) (Stream.at buf (8 * ((p + 7) / 8 + 2)))
      else .error .eof := by
  rw [eval_bind, eval_readS2be buf p hp, andThen_ite, andThen_ok, andThen_error]
@[rd ↓] theorem b_readU4be (k : Nat → Rd β) :
    Rd.eval (readU4be >>= k) (Stream.at buf p) =
      if (p + 7) / 8 + 4 ≤ buf.length then
        Rd.eval (k (u32be buf ((p + 7) / 8))) (Stream.at buf (8 * ((p + 7) / 8 + 4)))
      else .error .eof := by
  rw [eval_bind, eval_readU4be buf p hp, andThen_ite, andThen_ok, andThen_error]
@[rd ↓] theorem b_readU4le (k : Nat → Rd β) :
    Rd.eval (readU4le >>= k) (Stream.at buf p) =
      if (p + 7) / 8 + 4 ≤ buf.length then
        Rd.eval (k (u32le buf ((p + 7) / 8))) (Stream.at buf (8 * ((p + 7) / 8 + 4)))
      else .error .eof := by
  rw [eval_bind, eval_readU4le buf p hp, andThen_ite, andThen_ok, andThen_error]

end rules

section aligned
variable {β : Type} (buf : Bytes) (q : Nat) (hq : q ≤ buf.length)
include hq

@[rd ↓ high] theorem a_isEof (k : Bool → Rd β) :
    Rd.eval (isEof >>= k) (Stream.at buf (8 * q)) = Rd.eval (k (decide (q = buf.length))) (Stream.at buf (8 * q)) := by
  rw [b_isEof buf _ (by omega)]; congr 3; exact propext (by omega)
@[rd ↓ high] theorem a_readBytesFull (k : Bytes → Rd β) :
    Rd.eval (readBytesFull >>= k) (Stream.at buf (8 * q)) =
      Rd.eval (k (buf.drop q)) (Stream.at buf (8 * buf.length)) := by
  rw [b_readBytesFull buf _ (by omega), (by omega : (8 * q + 7) / 8 = q)]
@[rd ↓ high] theorem a_readBytes (n : Nat) (k : Bytes → Rd β) :
    Rd.eval (readBytes n >>= k) (Stream.at buf (8 * q)) =
      if q + n ≤ buf.length then Rd.eval (k (slice buf q n)) (Stream.at buf (8 * (q + n))) else .error .eof := by
  rw [b_readBytes buf _ (by omega), (by omega : (8 * q + 7) / 8 = q)]
@[rd ↓ high] theorem a_readBytesInt (n : Int) (k : Bytes → Rd β) :
    Rd.eval (readBytesInt n >>= k) (Stream.at buf (8 * q)) =
      if n < 0 then .error .value
      else if q + n.toNat ≤ buf.length then
        Rd.eval (k (slice buf q n.toNat)) (Stream.at buf (8 * (q + n.toNat)))
      else .error .eof := by
  rw [b_readBytesInt buf _ (by omega), (by omega : (8 * q + 7) / 8 = q)]
@[rd ↓ high] theorem a_readU1 (k : Nat → Rd β) :
    Rd.eval (readU1 >>= k) (Stream.at buf (8 * q)) =
      if q + 1 ≤ buf.length then Rd.eval (k (u8 buf q)) (Stream.at buf (8 * (q + 1))) else .error .eof := by
  rw [b_readU1 buf _ (by omega), (by omega : (8 * q + 7) / 8 = q)]
@[rd ↓ high] theorem a_readU2be (k : Nat → Rd β) :
    Rd.eval (readU2be >>= k) (Stream.at buf (8 * q)) =
      if q + 2 ≤ buf.length then Rd.eval (k (u16be buf q)) (Stream.at buf (8 * (q + 2))) else .error .eof := by
  rw [b_readU2be buf _ (by omega), (by omega : (8 * q + 7) / 8 = q)]
@[rd ↓ high] theorem a_readU2le (k : Nat → Rd β) :
    Rd.eval (readU2le >>= k) (Stream.at buf (8 * q)) =
      if q + 2 ≤ buf.length then Rd.eval (k (u16le buf q)) (Stream.at buf (8 * (q + 2))) else .error .eof := by
  rw [b_readU2le buf _ (by omega), (by omega : (8 * q + 7) / 8 = q)]
@[rd ↓ high] theorem a_readS2be (k : Int → Rd β) :
    Rd.eval (readS2be >>= k) (Stream.at buf (8 * q)) =
      if q + 2 ≤ buf.length then Rd.eval (k (s16be buf q)) (Stream.at buf (8 * (q + 2))) else .error .eof := by
  rw [b_readS2be buf _ (by omega), (by omega : (8 * q + 7) / 8 = q)]
@[rd ↓ high] theorem a_readU4be (k : Nat → Rd β) :
    Rd.eval (readU4be >>= k) (Stream.at buf (8 * q)) =
      if q + 4 ≤ buf.length then Rd.eval (k (u32be buf q)) (Stream.at buf (8 * (q + 4))) else .error .eof := by
  rw [b_readU4be buf _ (by omega), (by omega : (8 * q + 7) / 8 = q)]
@[rd ↓ high] theorem a_readU4le (k : Nat → Rd β) :
    Rd.eval (readU4le >>= k) (Stream.at buf (8 * q)) =
      if q + 4 ≤ buf.length then Rd.eval (k (u32le buf q)) (Stream.at buf (8 * (q + 4))) else .error .eof := by
  rw [b_readU4le buf _ (by omega), (by omega : (8 * q + 7) / 8 = q)]

end aligned

attribute [rd ↓] andThen_ok andThen_error andThen_ite eval_pure eval_pure' eval_throw eval_ite
  eval_readBitsIntBe eval_readBytes eval_readBytesInt eval_readBytesFull eval_readFlag eval_readU1
  eval_readU2be eval_readU2le eval_readS2be eval_readU4be eval_readU4le

/-- A declared length minus a constant. -/
@[rd] theorem toNat_sub_lit (n m : Nat) : ((n : Int) - no_index (OfNat.ofNat m : Int)).toNat = n - OfNat.ofNat m := by
  have : (OfNat.ofNat m : Int) = ((OfNat.ofNat m : Nat) : Int) := rfl
  omega

@[rd] theorem ceil_byte (q k : Nat) : (8 * q + k) / 8 = q + k / 8 := by omega

@[rd] theorem le_bits (k b : Nat) : (k ≤ 8 * b) = ((k + 7) / 8 ≤ b) := by
  apply propext; omega
@[rd] theorem eq_bits (a b : Nat) : (8 * a = 8 * b) = (a = b) := by
  apply propext; omega

/-- Consecutive "enough bytes" tests with the same failure collapse to the strongest. -/
@[rd] theorem merge_ite {α : Type} {c d : Prop} [Decidable c] [Decidable d] (x y : α) (h : d → c) :
    (if c then (if d then x else y) else y) = if d then x else y := by
  split_ifs <;> first | rfl | (exfalso; tauto)

/-- A test already implied by the previous one. -/
theorem merge_ite' {α : Type} {c d : Prop} [Decidable c] [Decidable d] (x y z : α) (h : c → d) :
    (if c then (if d then x else y) else z) = if c then x else z := by
  split_ifs <;> first | rfl | (exfalso; tauto)

attribute [rd] Nat.add_assoc Nat.add_zero Nat.zero_add ge_iff_le if_true if_false not_true_eq_false not_false_eq_true
  Bool.not_eq_true' decide_eq_true_eq decide_eq_false_iff_not Bool.and_eq_true Bool.or_eq_true
  Bool.not_eq_eq_eq_not Bool.not_true Bool.not_false

/-- Symbolic execution of a reader on a canonical stream state. -/
macro "rd_simp" "[" ts:Lean.Parser.Tactic.simpLemma,* "]" : tactic =>
  `(tactic| simp (disch := first | omega | (intros; omega)) only [rd, Nat.reduceAdd, Nat.reduceMul,
      Nat.reduceDiv, Nat.reduceMod, Nat.reduceSub, Nat.reduceLeDiff, Nat.reduceEqDiff, Nat.reducePow,
      ↓reduceIte, $ts,*])

end Dmr
