import Verif.Spec.Pack
import Verif.Props.Dispatch
import Verif.Lossless
/-
Reading back what `Wire.pack` wrote.
-/

namespace Dmr.Wire

open Spec

theorem number_lt : ∀ fs : List Fld, number fs < 2 ^ width fs
  | [] => by simp [number, width]
  | f :: fs => by
    have h := number_lt fs
    have h' := f.lt
    simp only [number, width, Nat.pow_add]
    calc f.v * 2 ^ width fs + number fs < f.v * 2 ^ width fs + 2 ^ width fs := by omega
      _ = (f.v + 1) * 2 ^ width fs := by ring
      _ ≤ 2 ^ f.w * 2 ^ width fs := Nat.mul_le_mul_right _ h'

theorem length_octets : ∀ n v, (octets n v).length = n
  | 0, _ => rfl
  | n + 1, v => by simp [octets, length_octets n v]

theorem beVal_octets : ∀ n v, beVal (octets n v) = v % 256 ^ n
  | 0, v => by simp [octets, beVal, Nat.mod_one]
  | n + 1, v => by
    have e : v % 256 ^ (n + 1) = v % 256 ^ n + 256 ^ n * (v / 256 ^ n % 256) := by
      rw [Nat.pow_succ, Nat.mod_mul]
    rw [octets, beVal, length_octets, beVal_octets n v, UInt8.toNat_ofNat', e, Nat.add_comm, Nat.mul_comm]

theorem length_pack (fs : List Fld) : (pack fs).length = width fs / 8 := length_octets _ _

theorem beVal_pack (fs : List Fld) (h : width fs % 8 = 0) : beVal (pack fs) = number fs := by
  rw [pack, beVal_octets, pow256, show 8 * (width fs / 8) = width fs by omega, Nat.mod_eq_of_lt (number_lt fs)]

theorem width_append : ∀ a b : List Fld, width (a ++ b) = width a + width b
  | [], _ => by simp [width]
  | f :: a, b => by simp only [List.cons_append, width, width_append a b]; omega

theorem number_append : ∀ a b : List Fld, number (a ++ b) = number a * 2 ^ width b + number b
  | [], _ => by simp [number]
  | f :: a, b => by
    simp only [List.cons_append, number, number_append a b, width_append, Nat.pow_add]
    ring

theorem bitsAt_append_left (a b : Bytes) (off w : Nat) (h : off + w ≤ 8 * a.length) :
    bitsAt (a ++ b) off w = bitsAt a off w := by
  unfold bitsAt
  rw [beVal_append, List.length_append, pow256]
  have : 8 * (a.length + b.length) - (off + w) = 8 * b.length + (8 * a.length - (off + w)) := by omega
  rw [this, Nat.pow_add, ← Nat.div_div_eq_div_mul, Nat.add_comm, Nat.add_mul_div_right _ _ (Nat.two_pow_pos _),
    Nat.div_eq_of_lt (beVal_lt' b), Nat.zero_add]

theorem bitsAt_append_right (a b : Bytes) (off w : Nat) (h : off + w ≤ 8 * b.length) :
    bitsAt (a ++ b) (8 * a.length + off) w = bitsAt b off w := by
  unfold bitsAt
  rw [beVal_append, List.length_append, pow256]
  have : 8 * (a.length + b.length) - (8 * a.length + off + w) = 8 * b.length - (off + w) := by omega
  rw [this]
  obtain ⟨k, hk⟩ : ∃ k, k = 8 * b.length - (off + w) := ⟨_, rfl⟩
  rw [← hk]
  have : 8 * b.length = off + w + k := by omega
  rw [this, Nat.pow_add, ← Nat.mul_assoc, Nat.add_comm, Nat.add_mul_div_right _ _ (Nat.two_pow_pos _), Nat.pow_add,
    ← Nat.mul_assoc, Nat.add_mul_mod_self_right]

/-- The bits of `m` from bit `off` are the fields `fs`. -/
def Fields (m : Bytes) : Nat → List Fld → Prop
  | _, [] => True
  | off, f :: fs => bitsAt m off f.w = f.v ∧ Fields m (off + f.w) fs

theorem bitsAt_pack (pre : List Fld) (f : Fld) (rest : List Fld) (post : Bytes)
    (h8 : width (pre ++ f :: rest) % 8 = 0) : bitsAt (pack (pre ++ f :: rest) ++ post) (width pre) f.w = f.v := by
  have hl : 8 * (pack (pre ++ f :: rest)).length = width pre + (f.w + width rest) := by
    rw [length_pack]
    rw [width_append, width] at *
    omega
  rw [bitsAt_append_left _ _ _ _ (by omega), bitsAt, beVal_pack _ h8, hl, number_append, width, number,
    show width pre + (f.w + width rest) - (width pre + f.w) = width rest by omega, Nat.pow_add, ← Nat.mul_assoc,
    ← Nat.add_assoc, ← Nat.add_mul, Nat.add_comm, Nat.add_mul_div_right _ _ (Nat.two_pow_pos _),
    Nat.div_eq_of_lt (number_lt rest), Nat.zero_add, Nat.add_comm, Nat.add_mul_mod_self_right, Nat.mod_eq_of_lt f.lt]

theorem fields_aux (fs : List Fld) (h8 : width fs % 8 = 0) (post : Bytes) : ∀ (rest pre : List Fld), fs = pre ++ rest →
    Fields (pack fs ++ post) (width pre) rest
  | [], _, _ => trivial
  | f :: rest, pre, e => by
    refine ⟨?_, ?_⟩
    · subst e
      exact bitsAt_pack pre f rest post h8
    · have := fields_aux fs h8 post rest (pre ++ [f]) (by rw [e]; simp)
      rwa [width_append, show width [f] = f.w from Nat.add_zero _] at this

/-- The fields that were written are found where they were written. -/
theorem fields_pack (fs : List Fld) (post : Bytes) (h8 : width fs % 8 = 0) : Fields (pack fs ++ post) 0 fs :=
  fields_aux fs h8 post fs [] rfl

theorem length_pack_append (fs : List Fld) (post : Bytes) : (pack fs ++ post).length = width fs / 8 + post.length := by
  rw [List.length_append, length_pack]

theorem toNat_beq_one (x : Bool) : (x.toNat == 1) = x := by cases x <;> rfl

@[simp] theorem ofBitVec_w {w : Nat} (x : BitVec w) : (ofBitVec x).w = w := rfl
@[simp] theorem ofBitVec_v {w : Nat} (x : BitVec w) : (ofBitVec x).v = x.toNat := rfl
@[simp] theorem le16_w (x : BitVec 16) : (le16 x).w = 16 := rfl
@[simp] theorem le32_w (x : BitVec 32) : (le32 x).w = 32 := rfl
@[simp] theorem ofBool_w (x : Bool) : (ofBool x).w = 1 := rfl
@[simp] theorem ofBool_v (x : Bool) : (ofBool x).v = x.toNat := rfl

theorem packed_facts (fs : List Fld) (post : Bytes) (h8 : width fs % 8 = 0) :
    ∃ m, pack fs ++ post = m ∧ Fields m 0 fs ∧ m.length = width fs / 8 + post.length ∧ m.drop (width fs / 8) = post :=
  ⟨_, rfl, fields_pack fs post h8, length_pack_append fs post, by rw [← length_pack, List.drop_left]⟩

/-- The bytes of `m` from offset `off` on begin with the byte strings `cs`. -/
def Chunks (m : Bytes) : Nat → List Bytes → Prop
  | _, [] => True
  | off, c :: cs => slice m off c.length = c ∧ Chunks m (off + c.length) cs

/-- Byte strings that were written one after the other are found where they were written. -/
theorem chunks_of_drop {m : Bytes} : ∀ {cs : List Bytes} {off : Nat} {rest : Bytes}, m.drop off = cs.flatten ++ rest →
    Chunks m off cs ∧ m.drop (off + cs.flatten.length) = rest
  | [], _, _, h => ⟨trivial, by simpa using h⟩
  | c :: cs, off, rest, h => by
    rw [List.flatten_cons, List.append_assoc] at h
    obtain ⟨a, b⟩ := chunks_of_drop (m := m) (cs := cs) (off := off + c.length) (rest := rest)
      (by rw [← List.drop_drop, h, List.drop_left])
    refine ⟨⟨by rw [slice, h, List.take_left], a⟩, ?_⟩
    rw [List.flatten_cons, List.length_append, ← Nat.add_assoc]
    exact b

theorem u8_bits (m : Bytes) (q : Nat) (h : q < m.length) : u8 m q = bitsAt m (8 * q) 8 := by
  rw [← beVal_slice m q 1 (by omega), slice_one m q h]
  simp [beVal, u8]

theorem u16be_bits (m : Bytes) (q : Nat) (h : q + 2 ≤ m.length) : u16be m q = bitsAt m (8 * q) 16 := by
  rw [u16be, u8_bits m q (by omega), u8_bits m (q + 1) (by omega), show 16 = 8 + 8 from rfl,
    bitsAt_add m (8 * q) 8 8 (by omega)]
  rfl

theorem u32be_bits (m : Bytes) (q : Nat) (h : q + 4 ≤ m.length) : u32be m q = bitsAt m (8 * q) 32 := by
  rw [show 32 = 16 + 16 from rfl, bitsAt_add m (8 * q) 16 16 (by omega), ← u16be_bits m q (by omega),
    show 8 * q + 16 = 8 * (q + 2) by omega, ← u16be_bits m (q + 2) (by omega)]
  simp only [u32be, u16be, Nat.add_assoc, Nat.reduceAdd]
  omega

theorem u8_of_drop {m : Bytes} {q : Nat} {x : UInt8} {r : Bytes} (h : m.drop q = x :: r) : u8 m q = x.toNat := by
  have := congrArg (·[0]?) h
  simp only [List.getElem?_drop, Nat.add_zero, List.getElem?_cons_zero] at this
  rw [u8, List.getD_eq_getElem?_getD, this]; rfl

theorem u16le_bits (m : Bytes) (q : Nat) (x : BitVec 16) (h : q + 2 ≤ m.length) (hx : bitsAt m (8 * q) 16 = (le16 x).v) :
    u16le m q = x.toNat := by
  rw [← u16be_bits m q h] at hx
  have h1 := u8_lt m q
  have h2 := u8_lt m (q + 1)
  have h3 := x.isLt
  simp only [le16, u16be, u16le] at *
  omega

theorem u32le_bits (m : Bytes) (q : Nat) (x : BitVec 32) (h : q + 4 ≤ m.length) (hx : bitsAt m (8 * q) 32 = (le32 x).v) :
    u32le m q = x.toNat := by
  rw [← u32be_bits m q h] at hx
  have h1 := u8_lt m q
  have h2 := u8_lt m (q + 1)
  have h3 := u8_lt m (q + 2)
  have h4 := u8_lt m (q + 3)
  have h5 := x.isLt
  simp only [le32, u32be, u32le, Nat.reducePow] at *
  generalize u8 m q = a, u8 m (q + 1) = b, u8 m (q + 2) = c, u8 m (q + 3) = d at *
  generalize x.toNat = v at *
  have e1 : v / 65536 = v / 256 / 256 := by rw [Nat.div_div_eq_div_mul]
  have e2 : v / 16777216 = v / 256 / 256 / 256 := by rw [Nat.div_div_eq_div_mul, Nat.div_div_eq_div_mul]
  rw [e1, e2] at hx
  obtain ⟨w, hw⟩ : ∃ w, w = v / 256 := ⟨_, rfl⟩
  obtain ⟨u, hu⟩ : ∃ u, u = w / 256 := ⟨_, rfl⟩
  obtain ⟨t, ht⟩ : ∃ t, t = u / 256 := ⟨_, rfl⟩
  rw [← hw, ← hu, ← ht] at hx
  obtain ⟨p0, g0⟩ : ∃ p, p = v % 256 := ⟨_, rfl⟩
  obtain ⟨p1, g1⟩ : ∃ p, p = w % 256 := ⟨_, rfl⟩
  obtain ⟨p2, g2⟩ : ∃ p, p = u % 256 := ⟨_, rfl⟩
  rw [← g0, ← g1, ← g2] at hx
  have k0 : v = p0 + 256 * w := by omega
  have k1 : w = p1 + 256 * u := by omega
  have k2 : u = p2 + 256 * t := by omega
  have l0 : p0 < 256 := by omega
  have l1 : p1 < 256 := by omega
  have l2 : p2 < 256 := by omega
  have l3 : t < 256 := by omega
  clear e1 e2 hw hu ht g0 g1 g2
  have r0 : a = p0 := by omega
  have r1 : b = p1 := by omega
  have r2 : c = p2 := by omega
  omega

theorem Fields.append_right (a : Bytes) {b : Bytes} : ∀ {fs : List Fld} {off : Nat}, off + width fs ≤ 8 * b.length →
    Fields b off fs → Fields (a ++ b) (8 * a.length + off) fs
  | [], _, _, _ => trivial
  | f :: fs, off, hl, h => by
    rw [width] at hl
    refine ⟨by rw [bitsAt_append_right _ _ _ _ (by omega)]; exact h.1, ?_⟩
    have := Fields.append_right a (fs := fs) (off := off + f.w) (by omega) h.2
    rwa [← Nat.add_assoc] at this

/-- Fields that were written after other bytes. -/
theorem fields_of_drop {m : Bytes} {fs : List Fld} {q : Nat} {post : Bytes} (h8 : width fs % 8 = 0)
    (h : m.drop q = pack fs ++ post) (hq : q ≤ m.length) : Fields m (8 * q) fs := by
  have e : m = m.take q ++ (pack fs ++ post) := by rw [← h, List.take_append_drop]
  have hl : (m.take q).length = q := by rw [List.length_take]; omega
  have := Fields.append_right (m.take q) (off := 0) (by rw [length_pack_append]; omega) (fields_pack fs post h8)
  rwa [← e, hl, Nat.add_zero] at this

theorem pack_append (a b : List Fld) (ha : width a % 8 = 0) (hb : width b % 8 = 0) : pack (a ++ b) = pack a ++ pack b := by
  refine beVal_inj ?_ ?_
  · rw [List.length_append, length_pack, length_pack, length_pack, width_append]; omega
  · rw [beVal_append, beVal_pack _ (by rw [width_append]; omega), beVal_pack a ha, beVal_pack b hb, number_append, length_pack,
      pow256, show 8 * (width b / 8) = width b by omega]

theorem Ascii.length_bytes {n : Nat} (s : Ascii n) : s.bytes.length = n := by
  rw [Ascii.bytes, List.length_map, s.2.1]

theorem encAscii_map : ∀ s : List Char, (∀ c ∈ s, c.toNat < 128) → encAscii s = some (s.map fun c => UInt8.ofNat c.toNat)
  | [], _ => rfl
  | c :: s, h => by
    rw [encAscii, encAscii_map s fun c hc => h c (List.mem_cons_of_mem _ hc), encAsciiChar,
      if_pos (h c List.mem_cons_self)]
    rfl

theorem Ascii.decode {n : Nat} (s : Ascii n) : decodeAscii s.bytes = some s.1 :=
  (decodeAscii_iff _ _).mpr (encAscii_map s.1 s.2.2)

/-- The bytes of a field. -/
theorem slice_of_bits (m : Bytes) (q n v : Nat) (h : q + n ≤ m.length) (hv : bitsAt m (8 * q) (8 * n) = v) :
    slice m q n = octets n v := by
  refine beVal_inj (by rw [length_slice m q n h, length_octets]) ?_
  rw [beVal_slice m q n h, hv, beVal_octets, ← hv, pow256, Nat.mod_eq_of_lt (bitsAt_lt _ _ _)]

@[simp] theorem ofOctets_w {n : Nat} (x : Octets n) : (ofOctets x).w = 8 * n := rfl
@[simp] theorem ofUtf8_w {n : Nat} (x : Utf8 n) : (ofUtf8 x).w = 8 * n := rfl

theorem bigEndian_eq : ∀ b : Bytes, bigEndian b = beVal b
  | [] => rfl
  | x :: b => by rw [bigEndian, beVal, bigEndian_eq b]

theorem octets_beVal (b : Bytes) : octets b.length (beVal b) = b := by
  refine beVal_inj (length_octets _ _) ?_
  rw [beVal_octets, pow256, Nat.mod_eq_of_lt (beVal_lt' b)]

theorem octets_ofOctets {n : Nat} (x : Octets n) : octets n (ofOctets x).v = x.val := by
  obtain ⟨b, rfl⟩ := x
  show octets b.length (bigEndian b) = b
  rw [bigEndian_eq, octets_beVal]

theorem decode_ofUtf8 {n : Nat} (x : Utf8 n) : decodeUtf8 (octets n (ofUtf8 x).v) = some x.val := by
  rw [ofUtf8, octets_ofOctets]
  exact (decodeUtf8_iff _ _).mpr rfl

theorem slice_bits (m : Bytes) (q n : Nat) (h : q + n ≤ m.length) : slice m q n = octets n (bitsAt m (8 * q) (8 * n)) :=
  slice_of_bits m q n _ h rfl

theorem s16be_bits (m : Bytes) (q : Nat) (x : BitVec 16) (h : u16be m q = x.toNat) : s16be m q = x.toInt := by
  rw [s16be, h, BitVec.toInt]
  have := x.isLt
  simp only [Nat.reducePow] at *
  by_cases h2 : x.toNat < 32768
  · rw [if_pos h2, if_pos (by omega)]
  · rw [if_neg h2, if_neg (by omega)]; omega

open Lean Meta Elab Tactic in
/-- Replace the message `pack fs ++ post` of the goal by a variable `m`; its fields are `hf`, its length `hl`, and what
follows the fields `hd`. -/
elab "packed" : tactic => withMainContext do
  let t ← instantiateMVars (← getMainTarget)
  let some e := t.find? (fun e => e.isAppOfArity ``HAppend.hAppend 6 && (e.getArg! 4).isAppOfArity ``pack 1)
    | throwError "no packed message"
  let fs ← Term.exprToSyntax (e.getArg! 4).appArg!
  let post ← Term.exprToSyntax (e.getArg! 5)
  evalTactic (← `(tactic| (
    obtain ⟨$(mkIdent `m), hm, $(mkIdent `hf), $(mkIdent `hl), $(mkIdent `hd)⟩ := packed_facts $fs $post
      (by simp only [List.cons_append, List.nil_append, width, ofBitVec_w, ofBool_w, le16_w, le32_w, ofOctets_w, ofUtf8_w, Nat.reduceMul, Nat.reduceAdd, Nat.add_zero, Nat.reduceMod])
    rw [hm]
    clear hm
    simp only [List.cons_append, List.nil_append, Fields, width, ofBitVec_w, ofBitVec_v, ofBool_w, le16_w, le32_w, ofOctets_w, ofUtf8_w, ofBool_v, Nat.reduceMul, Nat.reduceAdd, Nat.add_zero, Nat.zero_add, Nat.reduceDiv,
      and_true, BitVec.toNat_ofNat, Nat.reducePow, Nat.reduceMod] at $(mkIdent `hf):ident $(mkIdent `hl):ident $(mkIdent `hd):ident)))

end Dmr.Wire
