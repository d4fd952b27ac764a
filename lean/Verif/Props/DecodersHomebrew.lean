import Verif.Unpack
import Verif.Spec.HomebrewEncode
import Verif.Props.HomebrewMessages
import Verif.Props.Encoders2
import Verif.Props.Decoders
/-
C57: the Homebrew and MMDVM decoders accept exactly what a peer (`Verif/Spec/HomebrewEncode.lean`) can send and give exactly what
the peer wanted to say.
-/

set_option autoImplicit false
set_option linter.unusedSimpArgs false

namespace Dmr.Wire

open Spec Homebrew

theorem drop_eq_slice (b : Bytes) (q n : Nat) : b.drop q = slice b q n ++ b.drop (q + n) := by
  rw [slice, ← List.drop_drop, List.take_append_drop]

theorem drop_of_fields {m : Bytes} {fs : List Fld} {q n : Nat} (hn : width fs = 8 * n) (hl : q + n ≤ m.length)
    (h : Fields m (8 * q) fs) : m.drop q = pack fs ++ m.drop (q + n) := by
  have := slice_of_fields (q := q) (by omega) (by omega) h
  rw [hn, Nat.mul_div_cancel_left _ (by decide)] at this
  rw [drop_eq_slice m q n, this]

theorem drop_number (b : Bytes) (q : Nat) (h : q + 4 ≤ b.length) :
    b.drop q = pack f[fieldAt b (8 * q) 32] ++ b.drop (q + 4) := by
  refine drop_of_fields rfl h ?_
  simp only [Fields, ofBitVec_w, ofBitVec_v, toNat_fieldAt, and_self]

theorem u32be_after (a : Bytes) (x : BitVec 32) (rest : Bytes) : u32be (a ++ (pack f[x] ++ rest)) a.length = x.toNat := by
  have h := fields_of_drop (m := a ++ (pack f[x] ++ rest)) (fs := f[x]) (q := a.length) (post := rest) (by simp [width])
    (List.drop_left) (by simp only [List.length_append]; omega)
  have hl : (pack f[x]).length = 4 := by rw [length_pack]; simp [width]
  rw [u32be_bits _ _ (by simp only [List.length_append, hl]; omega)]
  exact h.1

theorem length_number (x : BitVec 32) : (pack f[x]).length = 4 := by rw [length_pack]; simp [width]

/-! ### Texts -/

theorem encAscii_ok {s : List Char} {b : Bytes} (h : encAscii s = some b) :
    (∀ c ∈ s, c.toNat < 128) ∧ (s.map fun c => UInt8.ofNat c.toNat) = b := by
  have hs : ∀ c ∈ s, c.toNat < 128 := by
    induction s generalizing b with
    | nil => simp
    | cons c cs ih =>
      rw [encAscii] at h
      split at h
      · next hc hb =>
        intro d hd
        rcases List.mem_cons.1 hd with rfl | hd
        · rw [encAsciiChar] at hc
          split at hc
          · assumption
          · simp at hc
        · exact ih hb d hd
      · simp at h
  refine ⟨hs, ?_⟩
  rw [encAscii_map s hs] at h
  exact Option.some.inj h

theorem ascii_found {s : List Char} {b : Bytes} {n : Nat} (h : encAscii s = some b) (hn : b.length = n) :
    ∃ t : Ascii n, t.bytes = b := by
  obtain ⟨h1, h2⟩ := encAscii_ok h
  exact ⟨⟨s, by rw [← hn, ← h2, List.length_map], h1⟩, h2⟩

theorem asciiText_found {s : List Char} {b : Bytes} (h : encAscii s = some b) : ∃ t : AsciiText, t.bytes = b := by
  obtain ⟨h1, h2⟩ := encAscii_ok h
  exact ⟨⟨s, h1⟩, h2⟩

def AsciiText.fixed (t : AsciiText) : Ascii t.val.length := ⟨t.val, rfl, t.ascii⟩

theorem encAscii_bytes {n : Nat} (t : Ascii n) : encAscii t.1 = some t.bytes := encAscii_map _ t.2.2
theorem AsciiText.enc (t : AsciiText) : encAscii t.val = some t.bytes := encAscii_map _ t.ascii

/-! ### Packets with fixed octets and a number -/

theorem fixed_ok {γ : Type} {b v : Bytes} {path : String} {packet : Nat → γ} {x : γ} (h : fixedThenNumber b v path packet = .ok x) :
    4 + v.length + 4 ≤ b.length ∧ slice b 4 v.length = v := by
  unfold fixedThenNumber at h
  by_cases h1 : b.length < 4 + v.length
  · rw [if_pos h1] at h; cases h
  by_cases h2 : slice b 4 v.length = v
  · by_cases h3 : b.length < 4 + v.length + 4
    · rw [if_neg h1, if_neg (by simpa using h2), if_pos h3] at h; cases h
    · exact ⟨by omega, h2⟩
  · rw [if_neg h1, if_pos h2] at h; cases h

theorem fixed_found {b c v : Bytes} (hc : b.take 4 = c) (hl : 4 + v.length + 4 ≤ b.length) (hv : slice b 4 v.length = v) :
    b = c ++ (v ++ pack f[fieldAt b (8 * (4 + v.length)) 32]) ++ b.drop (4 + v.length + 4) := by
  have h1 := drop_number b (4 + v.length) hl
  have h2 := drop_eq_slice b 4 v.length
  rw [hv, h1] at h2
  calc b = b.take 4 ++ b.drop 4 := (List.take_append_drop 4 b).symm
    _ = _ := by rw [hc, h2]; simp only [List.append_assoc]

theorem fixed_bytes {γ : Type} (c v : Bytes) (hc : c.length = 4) (id : BitVec 32) (rest : Bytes) (path : String) (packet : Nat → γ) :
    fixedThenNumber (c ++ (v ++ pack f[id]) ++ rest) v path packet = .ok (packet id.toNat) := by
  have hn := length_number id
  have hl : (c ++ (v ++ pack f[id]) ++ rest).length = 4 + v.length + 4 + rest.length := by
    simp only [List.length_append, hc, hn]; omega
  have hv : slice (c ++ (v ++ pack f[id]) ++ rest) 4 v.length = v := by
    rw [slice, List.append_assoc, List.drop_left' hc, List.append_assoc, List.take_left]
  have hu : u32be (c ++ (v ++ pack f[id]) ++ rest) (4 + v.length) = id.toNat := by
    have := u32be_after (c ++ v) id rest
    rw [List.length_append, hc] at this
    rw [← this]
    simp only [List.append_assoc]
  unfold fixedThenNumber
  rw [if_neg (by omega), if_neg (by rw [hv]; simp), if_neg (by omega), hu]

theorem number_found {b c : Bytes} (hc : b.take 4 = c) (hl : 8 ≤ b.length) :
    b = c ++ (pack f[fieldAt b 32 32] ++ b.drop 8) := by
  have h1 := drop_number b 4 hl
  calc b = b.take 4 ++ b.drop 4 := (List.take_append_drop 4 b).symm
    _ = _ := by rw [hc, h1]

/-! ### Bursts -/

theorem length_burst_header (x : Burst) (rest : Bytes) :
    (asc "DMRD" ++ (pack f[x.sequence, x.source, x.target, x.repeater, x.slot, x.call, x.frame, x.data_type, x.stream] ++ rest)).length =
      20 + rest.length := by
  rw [List.length_append, length_pack_append]
  simp only [width, ofBitVec_w]
  have : (asc "DMRD").length = 4 := rfl
  omega

/-- The quality octets of a packet and what follows them. -/
theorem quality_found (b : Bytes) : ∃ (q : Quality) (rest : Bytes),
    (q.closed = true → rest = []) ∧ b.drop 53 = q.bytes ++ rest := by
  rcases hd : b.drop 53 with _ | ⟨e, t⟩
  · exact ⟨.unknown, [], fun _ => rfl, rfl⟩
  have h8 (e : UInt8) : (BitVec.ofNat 8 e.toNat).toNat = e.toNat := by
    rw [BitVec.toNat_ofNat, Nat.mod_eq_of_lt e.toNat_lt]
  rcases t with _ | ⟨r, t⟩
  · refine ⟨.ber (BitVec.ofNat 8 e.toNat), [], fun _ => rfl, ?_⟩
    have := begins_of_fields (m := [e]) (n := 1) (fs := f[BitVec.ofNat 8 e.toNat]) (by rfl) (by simp) (by
      simp only [Fields, ofBitVec_w, ofBitVec_v, and_true, h8]
      exact (u8_bits [e] 0 (by simp)).symm)
    exact this
  · refine ⟨.berRssi (BitVec.ofNat 8 e.toNat) (BitVec.ofNat 8 r.toNat), t, fun h => by simp [Quality.closed] at h, ?_⟩
    have := begins_of_fields (m := e :: r :: t) (n := 2) (fs := f[BitVec.ofNat 8 e.toNat, BitVec.ofNat 8 r.toNat]) (by rfl) (by simp) (by
      simp only [Fields, ofBitVec_w, ofBitVec_v, and_true, h8]
      exact ⟨(u8_bits (e :: r :: t) 0 (by simp)).symm, (u8_bits (e :: r :: t) 1 (by simp)).symm⟩)
    exact this

theorem burst_found {b : Bytes} (hc : b.take 4 = asc "DMRD") (hl : 53 ≤ b.length) : ∃ (x : Burst) (rest : Bytes),
    (x.quality.closed = true → rest = []) ∧ b = x.bytes ++ rest := by
  obtain ⟨q, rest, h1, h2⟩ := quality_found b
  refine ⟨⟨fieldAt b 32 8, fieldAt b 40 24, fieldAt b 64 24, fieldAt b 88 32, fieldAt b 120 1, fieldAt b 121 1, fieldAt b 122 2,
    fieldAt b 124 4, fieldAt b 128 32, Octets.at b 20 33 (by omega), q⟩, rest, h1, ?_⟩
  have hf := drop_of_fields (m := b) (q := 4) (n := 16) (fs := f[fieldAt b 32 8, fieldAt b 40 24, fieldAt b 64 24, fieldAt b 88 32,
    fieldAt b 120 1, fieldAt b 121 1, fieldAt b 122 2, fieldAt b 124 4, fieldAt b 128 32]) (by rfl) (by omega) (by
      simp only [Fields, ofBitVec_w, ofBitVec_v, toNat_fieldAt, Nat.reduceAdd, Nat.reduceMul, and_self])
  have hp := drop_eq_slice b 20 33
  rw [h2] at hp
  rw [hp] at hf
  calc b = b.take 4 ++ b.drop 4 := (List.take_append_drop 4 b).symm
    _ = _ := by rw [hc, hf, Burst.bytes]; simp only [List.append_assoc, Octets.at]

/-- The facts about a burst on the wire. -/
theorem burst_facts (x : Burst) (rest : Bytes)
    (hr : x.quality.closed = true → rest = []) (b : Bytes)
    (hb : b = x.bytes ++ rest) :
    b.take 4 = asc "DMRD" ∧ 53 ≤ b.length ∧ u8 b 4 = x.sequence.toNat ∧ u24be b 5 = x.source.toNat ∧ u24be b 8 = x.target.toNat ∧
    u32be b 11 = x.repeater.toNat ∧ u8 b 15 / 128 = x.slot.toNat ∧ u8 b 15 / 64 % 2 = x.call.toNat ∧
    u8 b 15 / 16 % 4 = x.frame.toNat ∧ u8 b 15 % 16 = x.data_type.toNat ∧ u32be b 16 = x.stream.toNat ∧
    slice b 20 33 = x.payload.val ∧ (if 54 ≤ b.length then some (u8 b 53) else none) = x.quality.bit_error_rate ∧
    (if 55 ≤ b.length then some (u8 b 54) else none) = x.quality.rssi := by
  rw [Burst.bytes, List.append_assoc, List.append_assoc, List.append_assoc] at hb
  have hlen : b.length = 53 + (x.quality.bytes ++ rest).length := by
    rw [hb, length_burst_header, List.length_append, x.payload.len]; omega
  have hd : b.drop 4 = pack f[x.sequence, x.source, x.target, x.repeater, x.slot, x.call, x.frame, x.data_type, x.stream] ++
      (x.payload.val ++ (x.quality.bytes ++ rest)) := by
    rw [hb]; exact List.drop_left' rfl
  have hf := fields_of_drop (q := 4) (by simp [width]) hd (by omega)
  have hd2 : b.drop 20 = x.payload.val ++ (x.quality.bytes ++ rest) := by
    rw [show 20 = 4 + 16 from rfl, ← List.drop_drop, hd]
    exact List.drop_left' (by rw [length_pack]; simp [width])
  simp only [Fields, ofBitVec_w, ofBitVec_v, Nat.reduceAdd, Nat.reduceMul, and_true] at hf
  obtain ⟨f1, f2, f3, f4, f5, f6, f7, f8, f9⟩ := hf
  have hpay : slice b 20 33 = x.payload.val := by rw [slice, hd2]; exact take_octets _ _
  have hq : b.drop 53 = x.quality.bytes ++ rest := by
    rw [show 53 = 20 + 33 from rfl, ← List.drop_drop, hd2]; exact drop_octets _ _
  have e15 := u8_bits b 15 (by omega)
  have s1 := bitsAt_add b 120 1 7 (by omega)
  have s2 := bitsAt_add b 121 1 6 (by omega)
  have s3 := bitsAt_add b 122 2 4 (by omega)
  have l1 := x.slot.isLt
  have l2 := x.call.isLt
  have l3 := x.frame.isLt
  have l4 := x.data_type.isLt
  simp only [Nat.reduceAdd, Nat.reduceMul, f5, f6, f7, f8] at e15 s1 s2 s3
  rw [s1, s2, s3] at e15
  refine ⟨by rw [hb]; rfl, by omega, ?_, ?_, ?_, ?_, by omega, by omega, by omega, by omega, ?_, hpay, ?_, ?_⟩
  · rw [u8_bits b 4 (by omega)]; exact f1
  · rw [← bitsAt_24 b 5 (by omega)]; exact f2
  · rw [← bitsAt_24 b 8 (by omega)]; exact f3
  · rw [u32be_bits b 11 (by omega)]; exact f4
  · rw [u32be_bits b 16 (by omega)]; exact f9
  · rcases hx : x.quality with _ | e | ⟨e, r⟩ <;> simp only [hx, Quality.bytes, Quality.bit_error_rate, Quality.closed] at hq hlen hr ⊢
    · rw [hr trivial] at hlen; rw [if_neg (by rw [hlen]; decide)]
    · rw [hr trivial] at hq
      have g := fields_of_drop (q := 53) (by simp [width]) hq (by omega)
      have l : 54 ≤ b.length := by rw [hlen, length_pack_append]; simp only [width, ofBitVec_w]; omega
      rw [if_pos l, u8_bits b 53 (by omega)]
      exact congrArg some g.1
    · have g := fields_of_drop (q := 53) (by simp [width]) hq (by omega)
      have l : 54 ≤ b.length := by rw [hlen, length_pack_append]; simp only [width, ofBitVec_w]; omega
      rw [if_pos l, u8_bits b 53 (by omega)]
      exact congrArg some g.1
  · rcases hx : x.quality with _ | e | ⟨e, r⟩ <;> simp only [hx, Quality.bytes, Quality.rssi, Quality.closed] at hq hlen hr ⊢
    · rw [hr trivial] at hlen; rw [if_neg (by rw [hlen]; decide)]
    · rw [hr trivial, length_pack_append] at hlen
      simp only [width, ofBitVec_w, List.length_nil] at hlen
      rw [if_neg (by omega)]
    · have g := fields_of_drop (q := 53) (by simp [width]) hq (by omega)
      have l : 55 ≤ b.length := by rw [hlen, length_pack_append]; simp only [width, ofBitVec_w]; omega
      rw [if_pos l, u8_bits b 54 (by omega)]
      exact congrArg some g.2.1

/-! ### Configurations -/

theorem length_asc4 : (asc "RPTC").length = 4 := rfl

/-- The first octet of the identifier in a configuration. -/
theorem configId_found {b : Bytes} (hl : 8 ≤ b.length) (h5 : u8 b 4 < 128) (hL : u8 b 4 ≠ 0x4C) :
    ∃ id : ConfigId, id.id = fieldAt b 32 32 := by
  have h := u32be_bits b 4 (by omega)
  have e : (fieldAt b 32 32).toNat / 2 ^ 24 = u8 b 4 := by
    rw [toNat_fieldAt, show bitsAt b 32 32 = u32be b 4 from h.symm, u32be]
    have := u8_lt b 5
    have := u8_lt b 6
    have := u8_lt b 7
    simp only [Nat.reduceAdd]
    omega
  exact ⟨⟨fieldAt b 32 32, by omega, by omega⟩, rfl⟩

theorem of_u8_ge {b : Bytes} (h : 128 ≤ u8 b 4) : 5 ≤ b.length := by
  by_contra hl
  rw [u8, List.getD_eq_getElem?_getD, List.getElem?_eq_none (by omega)] at h
  simp at h

/-! ### Homebrew 2015 -/

theorem prefix_RPTC (id : BitVec 32) (rest : Bytes) : pack f[0x52505443#32, id] ++ rest = asc "RPTC" ++ (pack f[id] ++ rest) := by
  have := pack_append f[0x52505443#32] f[id] (by simp [width]) (by simp [width])
  rw [List.cons_append, List.nil_append] at this
  rw [this, List.append_assoc]
  rfl

theorem hb_encoder (msg : Hb) (rest : Bytes) (hr : msg.closed = true → rest = []) :
    fromBytes Homebrew2015.read (msg.bytes ++ rest) = .ok msg.obj := by
  cases msg with
  | login id =>
    have e := C29_login (asc "RPTL" ++ pack f[id] ++ rest) rfl
    rw [List.append_assoc] at e
    have hu : u32be (asc "RPTL" ++ (pack f[id] ++ rest)) 4 = id.toNat := u32be_after (asc "RPTL") id rest
    have hl : ¬ (asc "RPTL" ++ (pack f[id] ++ rest)).length < 8 := by
      simp only [List.length_append, length_number, show (asc "RPTL").length = 4 from rfl]; omega
    rw [if_neg hl, hu] at e
    rw [Hb.bytes, List.append_assoc, e]; rfl
  | response id sha256 =>
    have e := C29_login_response (asc "RPTK" ++ (pack f[id] ++ (sha256.val ++ rest))) rfl
    have hu : u32be (asc "RPTK" ++ (pack f[id] ++ (sha256.val ++ rest))) 4 = id.toNat := u32be_after (asc "RPTK") id _
    have hl : ¬ (asc "RPTK" ++ (pack f[id] ++ (sha256.val ++ rest))).length < 40 := by
      simp only [List.length_append, length_number, sha256.len, show (asc "RPTK").length = 4 from rfl]; omega
    have hs : slice (asc "RPTK" ++ (pack f[id] ++ (sha256.val ++ rest))) 8 32 = sha256.val := by
      rw [slice, show 8 = 4 + 4 from rfl, ← List.drop_drop, List.drop_left' (show (asc "RPTK").length = 4 from rfl), List.drop_left' (length_number id), take_octets]
    rw [if_neg hl, hu, hs] at e
    rw [Hb.bytes, List.append_assoc, List.append_assoc, e]; rfl
  | accept id random =>
    rcases random with _ | random
    · rw [hr rfl, List.append_nil]
      have e := C29_master_repeater_ack (asc "MSTA" ++ (asc "CK" ++ pack f[id])) rfl
      have hl : (asc "MSTA" ++ (asc "CK" ++ pack f[id])).length = 10 := by
        simp only [List.length_append, length_number]; rfl
      have hu : u32be (asc "MSTA" ++ (asc "CK" ++ pack f[id])) 6 = id.toNat := by
        have := u32be_after (asc "MSTA" ++ asc "CK") id []
        rwa [List.append_nil, List.append_assoc] at this
      dsimp only at e
      rw [hl, if_neg (by decide), if_neg (by simp [slice, asc]), if_neg (by decide), if_pos rfl, hu] at e
      rw [Hb.bytes, e]; rfl
    · have e := C29_master_repeater_ack (asc "MSTA" ++ (asc "CK" ++ (pack f[id] ++ (pack f[random] ++ rest)))) rfl
      have hl : (asc "MSTA" ++ (asc "CK" ++ (pack f[id] ++ (pack f[random] ++ rest)))).length = 14 + rest.length := by
        simp only [List.length_append, length_number, show (asc "MSTA").length = 4 from rfl, show (asc "CK").length = 2 from rfl]
        omega
      have hu : u32be (asc "MSTA" ++ (asc "CK" ++ (pack f[id] ++ (pack f[random] ++ rest)))) 6 = id.toNat := by
        have := u32be_after (asc "MSTA" ++ asc "CK") id (pack f[random] ++ rest)
        rwa [List.append_assoc] at this
      have hv : u32be (asc "MSTA" ++ (asc "CK" ++ (pack f[id] ++ (pack f[random] ++ rest)))) 10 = random.toNat := by
        have := u32be_after (asc "MSTA" ++ (asc "CK" ++ pack f[id])) random rest
        rw [show (asc "MSTA" ++ (asc "CK" ++ pack f[id])).length = 10 by simp only [List.length_append, length_number]; rfl] at this
        simpa only [List.append_assoc] using this
      dsimp only at e
      rw [hl, if_neg (by omega), if_neg (by simp [slice, asc]), if_neg (by omega), if_neg (by omega), if_neg (by omega), hu, hv] at e
      rw [Hb.bytes]
      simp only [List.append_assoc]
      rw [e]; rfl
  | refuse id => rw [Hb.bytes, C29_master_not_accept _ rfl, fixed_bytes _ _ rfl]; rfl
  | masterClosing id => rw [Hb.bytes, C29_master_closing _ rfl, fixed_bytes _ _ rfl]; rfl
  | repeaterClosing id =>
    have hu : u32be (asc "RPTC" ++ (asc "L" ++ (pack f[id] ++ rest))) 5 = id.toNat := by
      have := u32be_after (asc "RPTC" ++ asc "L") id rest
      rwa [List.append_assoc] at this
    have hl : ¬ (asc "RPTC" ++ (asc "L" ++ (pack f[id] ++ rest))).length < 9 := by
      simp only [List.length_append, length_number, length_asc4, show (asc "L").length = 1 from rfl]; omega
    have e := C32_homebrew_closing (asc "RPTC" ++ (asc "L" ++ (pack f[id] ++ rest))) rfl rfl
    rw [if_neg hl, hu] at e
    rw [Hb.bytes, List.append_assoc, List.append_assoc, e]; rfl
  | ping id => rw [Hb.bytes, C29_master_ping _ rfl, fixed_bytes _ _ rfl]; rfl
  | pong id => rw [Hb.bytes, C29_repeater_pong _ rfl, fixed_bytes _ _ rfl]; rfl
  | configuration id c description text =>
    rw [hr rfl, List.append_nil]
    have e := C51_homebrew2015_configuration id.id id.ascii id.notL c.call_sign c.rx_freq c.tx_freq c.tx_power c.color_code c.latitude
      c.longitude c.height c.location description c.url c.software c.package text.fixed
    rw [prefix_RPTC] at e
    rw [Hb.bytes]
    simp only [Columns.before, Columns.after, List.cons_append, List.nil_append, List.flatten_cons, List.flatten_nil,
      List.append_assoc, List.append_nil] at e ⊢
    exact e
  | burst x =>
    obtain ⟨h0, h1, h2, h3, h4, h5, h6, h7, h8, h9, h10, h11, h12, h13⟩ := burst_facts x rest hr _ rfl
    rw [Hb.bytes, C31_homebrew _ h0, if_neg (by omega), h2, h3, h4, h5, h6, h7, h8, h9, h10, h11, h12, h13]
    rfl

/-- The columns of a configuration, from the texts found in them. -/
theorem columns_found {b : Bytes} {n : Nat} {mid : List Bytes} (hl : 302 ≤ b.length) (hm : slice b 78 20 = mid.flatten)
    {t1 t2 t3 t4 t5 t6 t7 t8 t9 t11 t12 t13 t14 : List Char}
    (h1 : encAscii t1 = some (slice b 8 8)) (h2 : encAscii t2 = some (slice b 16 9)) (h3 : encAscii t3 = some (slice b 25 9))
    (h4 : encAscii t4 = some (slice b 34 2)) (h5 : encAscii t5 = some (slice b 36 2)) (h6 : encAscii t6 = some (slice b 38 8))
    (h7 : encAscii t7 = some (slice b 46 9)) (h8 : encAscii t8 = some (slice b 55 3)) (h9 : encAscii t9 = some (slice b 58 20))
    (h11 : encAscii t11 = some (slice b 98 124)) (h12 : encAscii t12 = some (slice b 222 40))
    (h13 : encAscii t13 = some (slice b 262 40)) (h14 : encAscii t14 = some (b.drop 302)) (hn : n = 8) :
    ∃ (c : Columns) (text : AsciiText), b.drop n = (c.before ++ mid ++ c.after).flatten ++ text.bytes := by
  subst hn
  obtain ⟨s1, e1⟩ := ascii_found h1 (length_slice b 8 8 (by omega))
  obtain ⟨s2, e2⟩ := ascii_found h2 (length_slice b 16 9 (by omega))
  obtain ⟨s3, e3⟩ := ascii_found h3 (length_slice b 25 9 (by omega))
  obtain ⟨s4, e4⟩ := ascii_found h4 (length_slice b 34 2 (by omega))
  obtain ⟨s5, e5⟩ := ascii_found h5 (length_slice b 36 2 (by omega))
  obtain ⟨s6, e6⟩ := ascii_found h6 (length_slice b 38 8 (by omega))
  obtain ⟨s7, e7⟩ := ascii_found h7 (length_slice b 46 9 (by omega))
  obtain ⟨s8, e8⟩ := ascii_found h8 (length_slice b 55 3 (by omega))
  obtain ⟨s9, e9⟩ := ascii_found h9 (length_slice b 58 20 (by omega))
  obtain ⟨s11, e11⟩ := ascii_found h11 (length_slice b 98 124 (by omega))
  obtain ⟨s12, e12⟩ := ascii_found h12 (length_slice b 222 40 (by omega))
  obtain ⟨s13, e13⟩ := ascii_found h13 (length_slice b 262 40 (by omega))
  obtain ⟨s14, e14⟩ := asciiText_found h14
  refine ⟨⟨s1, s2, s3, s4, s5, s6, s7, s8, s9, s11, s12, s13⟩, s14, ?_⟩
  simp only [Columns.before, Columns.after, List.flatten_append, List.cons_append, List.nil_append, List.flatten_cons, List.flatten_nil, List.append_assoc,
    List.append_nil, e1, e2, e3, e4, e5, e6, e7, e8, e9, e11, e12, e13, e14, ← hm]
  rw [drop_eq_slice b 8 8, drop_eq_slice b (8 + 8) 9, drop_eq_slice b (8 + 8 + 9) 9, drop_eq_slice b (8 + 8 + 9 + 9) 2,
    drop_eq_slice b (8 + 8 + 9 + 9 + 2) 2, drop_eq_slice b (8 + 8 + 9 + 9 + 2 + 2) 8, drop_eq_slice b (8 + 8 + 9 + 9 + 2 + 2 + 8) 9,
    drop_eq_slice b (8 + 8 + 9 + 9 + 2 + 2 + 8 + 9) 3, drop_eq_slice b (8 + 8 + 9 + 9 + 2 + 2 + 8 + 9 + 3) 20,
    drop_eq_slice b (8 + 8 + 9 + 9 + 2 + 2 + 8 + 9 + 3 + 20) 20, drop_eq_slice b (8 + 8 + 9 + 9 + 2 + 2 + 8 + 9 + 3 + 20 + 20) 124,
    drop_eq_slice b (8 + 8 + 9 + 9 + 2 + 2 + 8 + 9 + 3 + 20 + 20 + 124) 40,
    drop_eq_slice b (8 + 8 + 9 + 9 + 2 + 2 + 8 + 9 + 3 + 20 + 20 + 124 + 40) 40]

theorem slice_L {b : Bytes} (hl : 9 ≤ b.length) (h4 : u8 b 4 = 0x4C) : slice b 4 (asc "L").length = asc "L" := by
  rw [show (asc "L").length = 1 from rfl, slice_one b 4 (by omega)]
  have : b[4]?.getD 0 = 0x4C := UInt8.toNat_inj.1 h4
  simp [asc, this]

theorem hb_found {b : Bytes} {x : Homebrew2015} (h : fromBytes Homebrew2015.read b = .ok x)
    (hc : x.command_prefix ∈ Hb.commands.map String.toList) :
    ∃ (msg : Hb) (rest : Bytes), (msg.closed = true → rest = []) ∧ b = msg.bytes ++ rest := by
  obtain ⟨hl, hp, -⟩ := (C29_dispatch b).2.2.2 x h
  simp only [Hb.commands, List.map_cons, List.map_nil, List.mem_cons, List.not_mem_nil, or_false] at hc
  rcases hc with e | e | e | e | e | e | e | e | e <;> rw [e] at hp
  · have hp' : b.take 4 = asc "RPTL" := hp.symm
    rw [C29_login b hp'] at h
    by_cases h8 : b.length < 8
    · rw [if_pos h8] at h; cases h
    · refine ⟨.login (fieldAt b 32 32), b.drop 8, fun h => by simp [Hb.closed] at h, ?_⟩
      rw [Hb.bytes, List.append_assoc]
      exact number_found hp' (by omega)
  · have hp' : b.take 4 = asc "RPTK" := hp.symm
    rw [C29_login_response b hp'] at h
    by_cases h8 : b.length < 40
    · rw [if_pos h8] at h; cases h
    · refine ⟨.response (fieldAt b 32 32) (Octets.at b 8 32 (by omega)), b.drop 40, fun h => by simp [Hb.closed] at h, ?_⟩
      rw [Hb.bytes, List.append_assoc, List.append_assoc]
      have := number_found hp' (by omega)
      rwa [drop_eq_slice b 8 32] at this
  · have hp' : b.take 4 = asc "MSTA" := hp.symm
    rw [C29_master_repeater_ack b hp'] at h
    dsimp only at h
    by_cases h6 : b.length < 6
    · rw [if_pos h6] at h; cases h
    by_cases hk : slice b 4 2 = asc "CK"
    · rw [if_neg h6, if_neg (by simpa using hk)] at h
      by_cases h10 : b.length < 10
      · rw [if_pos h10] at h; cases h
      have hn := fixed_found (v := asc "CK") hp' (show 4 + 2 + 4 ≤ b.length by omega) hk
      by_cases h1 : b.length = 10
      · refine ⟨.accept (fieldAt b 48 32) none, [], fun _ => rfl, ?_⟩
        rw [show (4 + (asc "CK").length + 4) = 10 from rfl, List.drop_eq_nil_of_le (by omega)] at hn
        exact hn
      · rw [if_neg h10, if_neg h1] at h
        by_cases h14 : b.length < 14
        · rw [if_pos h14] at h; cases h
        refine ⟨.accept (fieldAt b 48 32) (some (fieldAt b 80 32)), b.drop 14, fun h => by simp [Hb.closed] at h, ?_⟩
        rw [show (4 + (asc "CK").length + 4) = 10 from rfl, drop_number b 10 (by omega)] at hn
        rw [Hb.bytes]
        simp only [List.append_assoc] at hn ⊢
        exact hn
    · rw [if_neg h6, if_pos hk] at h; cases h
  · have hp' : b.take 4 = asc "MSTN" := hp.symm
    rw [C29_master_not_accept b hp'] at h
    obtain ⟨h1, h2⟩ := fixed_ok h
    exact ⟨.refuse _, _, fun h => by simp [Hb.closed] at h, fixed_found hp' h1 h2⟩
  · have hp' : b.take 4 = asc "MSTC" := hp.symm
    rw [C29_master_closing b hp'] at h
    obtain ⟨h1, h2⟩ := fixed_ok h
    exact ⟨.masterClosing _, _, fun h => by simp [Hb.closed] at h, fixed_found hp' h1 h2⟩
  · have hp' : b.take 4 = asc "RPTC" := hp.symm
    by_cases h4 : u8 b 4 = 0x4C
    · rw [C32_homebrew_closing b hp' h4] at h
      by_cases h9 : b.length < 9
      · rw [if_pos h9] at h; cases h
      · have h2 := slice_L (b := b) (by omega) h4
        exact ⟨.repeaterClosing _, _, fun h => by simp [Hb.closed] at h, fixed_found hp' (show 4 + 1 + 4 ≤ b.length by omega) h2⟩
    by_cases h5 : u8 b 4 < 128
    · obtain ⟨a1, a2, a3⟩ := C29_configuration_accept b hp' h5 h4
      by_cases hl2 : b.length < 302
      · rcases a1 hl2 with g | g <;> rw [g] at h <;> cases h
      by_cases ha : ∀ i, 8 ≤ i → i < b.length → u8 b i < 128
      · obtain ⟨y, hy⟩ := a2 (by omega) ha
        obtain ⟨-, -, g1, g2, g3, g4, g5, g6, g7, g8, g9, g10, g11, g12, g13, g14⟩ := C29_configuration b y hp' hy
        obtain ⟨d, hd⟩ := ascii_found g10 (length_slice b 78 20 (by omega))
        obtain ⟨c, text, hct⟩ := columns_found (n := 8) (mid := [d.bytes]) (by omega) (by rw [hd]; simp) g1 g2 g3 g4 g5 g6 g7 g8 g9 g11 g12 g13 g14 rfl
        obtain ⟨id, hid⟩ := configId_found (b := b) (by omega) h5 h4
        refine ⟨.configuration id c d text, [], fun _ => rfl, ?_⟩
        rw [List.append_nil, Hb.bytes, hid, ← hct]
        exact number_found hp' (by omega)
      · rw [a3 (by omega) (by push Not at ha; exact ha)] at h; cases h
    · rw [C32_homebrew_high b hp' (of_u8_ge (by omega)) (by omega)] at h; cases h
  · have hp' : b.take 4 = asc "MSTP" := hp.symm
    rw [C29_master_ping b hp'] at h
    obtain ⟨h1, h2⟩ := fixed_ok h
    exact ⟨.ping _, _, fun h => by simp [Hb.closed] at h, fixed_found hp' h1 h2⟩
  · have hp' : b.take 4 = asc "RPTP" := hp.symm
    rw [C29_repeater_pong b hp'] at h
    obtain ⟨h1, h2⟩ := fixed_ok h
    exact ⟨.pong _, _, fun h => by simp [Hb.closed] at h, fixed_found hp' h1 h2⟩
  · have hp' : b.take 4 = asc "DMRD" := hp.symm
    rw [C31_homebrew b hp'] at h
    by_cases h53 : b.length < 53
    · rw [if_pos h53] at h; cases h
    · obtain ⟨y, rest, h1, h2⟩ := burst_found hp' (by omega)
      exact ⟨.burst y, rest, h1, h2⟩

/-- C57: `Homebrew2015.from_bytes(b)` returns `x` exactly if `b` is a packet that means `x` (with any octets after it, if the packet
does not have to end with the datagram), or begins with four octets of text that are no command. -/
theorem C57_homebrew (b : Bytes) (x : Homebrew2015) :
    fromBytes Homebrew2015.read b = .ok x ↔
      (∃ (msg : Hb) (rest : Bytes), (msg.closed = true → rest = []) ∧ b = msg.bytes ++ rest ∧ x = msg.obj) ∨
      ∃ (command : Utf8 4) (rest : Bytes), command.val ∉ Hb.commands.map String.toList ∧
        b = encUtf8 command.val ++ rest ∧ x = { command_prefix := command.val, command_data := none } := by
  have other (s : List Char) (hl : 4 ≤ b.length) (hs : encUtf8 s = b.take 4) (hc : s ∉ Hb.commands.map String.toList) :
      fromBytes Homebrew2015.read b = .ok { command_prefix := s, command_data := none } := by
    refine (C29_dispatch b).2.2.1 s hl hs ?_
    rw [List.lookup_eq_none_iff]
    intro p hp
    simp only [beq_iff_eq, beq_eq_false_iff_ne, ne_eq, bne_iff_ne]
    rintro rfl
    apply hc
    clear hc hs
    revert p
    decide
  constructor
  · intro h
    by_cases hc : x.command_prefix ∈ Hb.commands.map String.toList
    · obtain ⟨msg, rest, h1, rfl⟩ := hb_found h hc
      refine Or.inl ⟨msg, rest, h1, rfl, ?_⟩
      rw [hb_encoder msg rest h1] at h
      exact (Except.ok.inj h).symm
    · obtain ⟨hl, hp, -⟩ := (C29_dispatch b).2.2.2 x h
      refine Or.inr ⟨⟨x.command_prefix, by rw [hp, List.length_take]; omega⟩, b.drop 4, hc, ?_, ?_⟩
      · rw [hp, List.take_append_drop]
      · rw [other _ hl hp hc] at h
        exact (Except.ok.inj h).symm
  · rintro (⟨msg, rest, h1, rfl, rfl⟩ | ⟨command, rest, hc, rfl, rfl⟩)
    · exact hb_encoder msg rest h1
    · exact other _ (by rw [List.length_append, command.len]; omega) (List.take_left' command.len).symm hc

/-! ### MMDVM 2020 -/

theorem mm_encoder (msg : Mm) (rest : Bytes) (hr : msg.closed = true → rest = []) :
    fromBytes Mmdvm2020.read (msg.bytes ++ rest) = .ok msg.obj := by
  cases msg with
  | login id =>
    have e := C30_login (asc "RPTL" ++ pack f[id] ++ rest) rfl
    rw [List.append_assoc] at e
    have hu : u32be (asc "RPTL" ++ (pack f[id] ++ rest)) 4 = id.toNat := u32be_after (asc "RPTL") id rest
    have hl : ¬ (asc "RPTL" ++ (pack f[id] ++ rest)).length < 8 := by
      simp only [List.length_append, length_number, show (asc "RPTL").length = 4 from rfl]; omega
    rw [if_neg hl, hu] at e
    rw [Mm.bytes, List.append_assoc, e]; rfl
  | response id sha256 =>
    have e := C30_login_response (asc "RPTK" ++ (pack f[id] ++ (sha256.val ++ rest))) rfl
    have hu : u32be (asc "RPTK" ++ (pack f[id] ++ (sha256.val ++ rest))) 4 = id.toNat := u32be_after (asc "RPTK") id _
    have hl : ¬ (asc "RPTK" ++ (pack f[id] ++ (sha256.val ++ rest))).length < 40 := by
      simp only [List.length_append, length_number, sha256.len, show (asc "RPTK").length = 4 from rfl]; omega
    have hs : slice (asc "RPTK" ++ (pack f[id] ++ (sha256.val ++ rest))) 8 32 = sha256.val := by
      rw [slice, show 8 = 4 + 4 from rfl, ← List.drop_drop, List.drop_left' (show (asc "RPTK").length = 4 from rfl), List.drop_left' (length_number id), take_octets]
    rw [if_neg hl, hu, hs] at e
    rw [Mm.bytes, List.append_assoc, List.append_assoc, e]; rfl
  | accept id => rw [Mm.bytes, C30_master_repeater_ack _ rfl, fixed_bytes _ _ rfl]; rfl
  | refuse id => rw [Mm.bytes, C30_master_not_accept _ rfl, fixed_bytes _ _ rfl]; rfl
  | masterClosing id => rw [Mm.bytes, C30_master_closing _ rfl, fixed_bytes _ _ rfl]; rfl
  | repeaterClosing id =>
    have hu : u32be (asc "RPTC" ++ (asc "L" ++ (pack f[id] ++ rest))) 5 = id.toNat := by
      have := u32be_after (asc "RPTC" ++ asc "L") id rest
      rwa [List.append_assoc] at this
    have hl : ¬ (asc "RPTC" ++ (asc "L" ++ (pack f[id] ++ rest))).length < 9 := by
      simp only [List.length_append, length_number, length_asc4, show (asc "L").length = 1 from rfl]; omega
    have e := C32_mmdvm_closing (asc "RPTC" ++ (asc "L" ++ (pack f[id] ++ rest))) rfl rfl
    rw [if_neg hl, hu] at e
    rw [Mm.bytes, List.append_assoc, List.append_assoc, e]; rfl
  | ping id => rw [Mm.bytes, C30_repeater_ping _ rfl, fixed_bytes _ _ rfl]; rfl
  | pong id => rw [Mm.bytes, C30_master_pong _ rfl, fixed_bytes _ _ rfl]; rfl
  | configuration id c description slots text =>
    rw [hr rfl, List.append_nil]
    have e := C51_mmdvm2020_configuration id.id id.ascii id.notL c.call_sign c.rx_freq c.tx_freq c.tx_power c.color_code c.latitude
      c.longitude c.height c.location description slots c.url c.software c.package text.fixed
    rw [prefix_RPTC] at e
    rw [Mm.bytes]
    simp only [Columns.before, Columns.after, List.cons_append, List.nil_append, List.flatten_cons, List.flatten_nil,
      List.append_assoc, List.append_nil] at e ⊢
    exact e
  | burst x =>
    obtain ⟨h0, h1, h2, h3, h4, h5, h6, h7, h8, h9, h10, h11, h12, h13⟩ := burst_facts x rest hr _ rfl
    rw [Mm.bytes, C31_mmdvm _ h0, if_neg (by omega), h2, h3, h4, h5, h6, h7, h8, h9, h10, h11, h12, h13]
    rfl
  | options id text =>
    rw [hr rfl, List.append_nil]
    have hu : u32be (asc "RPTO" ++ (pack f[id] ++ text.bytes)) 4 = id.toNat := u32be_after (asc "RPTO") id _
    have e := (C30_options (asc "RPTO" ++ (pack f[id] ++ text.bytes)) rfl).2.2 text.val (by
      simp only [List.length_append, length_number, show (asc "RPTO").length = 4 from rfl]; omega) (by
      rw [text.enc, show 8 = 4 + 4 from rfl, ← List.drop_drop, List.drop_left' (show (asc "RPTO").length = 4 from rfl),
        List.drop_left' (length_number id)])
    rw [hu] at e
    exact e
  | beacon => rw [Mm.bytes, C30_beacon _ rfl]; rfl
  | position radio reserved error longitude latitude =>
    have e := C51_mmdvm2020_position radio reserved error longitude latitude rest
    have := pack_append f[0x444D5247#32] f[radio, reserved, error, longitude, latitude] (by simp [width]) (by simp [width])
    rw [List.cons_append, List.nil_append] at this
    rw [this] at e
    exact e
  | talkerAlias radio block text =>
    have hd : (asc "DMRA" ++ (pack f[radio, block] ++ (text.bytes ++ rest))).drop 4 = pack f[radio, block] ++ (text.bytes ++ rest) :=
      List.drop_left' rfl
    have hp : (pack f[radio, block]).length = 4 := by rw [length_pack]; simp [width]
    have hl : 16 ≤ (asc "DMRA" ++ (pack f[radio, block] ++ (text.bytes ++ rest))).length := by
      simp only [List.length_append, hp, text.length_bytes, show (asc "DMRA").length = 4 from rfl]; omega
    have hf := fields_of_drop (q := 4) (by simp [width]) hd (by omega)
    have e := (C30_talker_alias (asc "DMRA" ++ (pack f[radio, block] ++ (text.bytes ++ rest))) rfl).2.2 text.1 hl (by
      have h8 := List.drop_drop (i := 4) (j := 4) (l := asc "DMRA" ++ (pack f[radio, block] ++ (text.bytes ++ rest)))
      rw [hd, List.drop_left' hp] at h8
      rw [encAscii_bytes, slice, ← h8]
      exact congrArg some (List.take_left' text.length_bytes).symm)
    rw [← bitsAt_24 _ 4 (by omega), u8_bits _ 7 (by omega)] at e
    simp only [Fields, ofBitVec_w, ofBitVec_v, Nat.reduceAdd, Nat.reduceMul, and_true] at hf e
    rw [hf.1, hf.2] at e
    rw [Mm.bytes, List.append_assoc, List.append_assoc, e]
    rfl

theorem mm_found {b : Bytes} {x : Mmdvm2020} (h : fromBytes Mmdvm2020.read b = .ok x)
    (hc : x.command_prefix ∈ Mm.commands.map String.toList) :
    ∃ (msg : Mm) (rest : Bytes), (msg.closed = true → rest = []) ∧ b = msg.bytes ++ rest := by
  obtain ⟨hl, hp, -⟩ := (C30_dispatch b).2.2.2 x h
  simp only [Mm.commands, List.map_cons, List.map_nil, List.mem_cons, List.not_mem_nil, or_false] at hc
  have hp4 : ∀ s, s ∈ Mm.commands → encAscii s.toList = some (asc s) := by decide
  rcases hc with e | e | e | e | e | e | e | e | e | e | e | e | e <;> rw [e] at hp
  · have hp' : b.take 4 = asc "RPTL" := (Option.some.inj ((hp4 "RPTL" (by decide)).symm.trans hp)).symm
    rw [C30_login b hp'] at h
    by_cases h8 : b.length < 8
    · rw [if_pos h8] at h; cases h
    · refine ⟨.login (fieldAt b 32 32), b.drop 8, fun h => by simp [Mm.closed] at h, ?_⟩
      rw [Mm.bytes, List.append_assoc]
      exact number_found hp' (by omega)
  · have hp' : b.take 4 = asc "RPTK" := (Option.some.inj ((hp4 "RPTK" (by decide)).symm.trans hp)).symm
    rw [C30_login_response b hp'] at h
    by_cases h8 : b.length < 40
    · rw [if_pos h8] at h; cases h
    · refine ⟨.response (fieldAt b 32 32) (Octets.at b 8 32 (by omega)), b.drop 40, fun h => by simp [Mm.closed] at h, ?_⟩
      rw [Mm.bytes, List.append_assoc, List.append_assoc]
      have := number_found hp' (by omega)
      rwa [drop_eq_slice b 8 32] at this
  · have hp' : b.take 4 = asc "RPTA" := (Option.some.inj ((hp4 "RPTA" (by decide)).symm.trans hp)).symm
    rw [C30_master_repeater_ack b hp'] at h
    obtain ⟨h1, h2⟩ := fixed_ok h
    exact ⟨.accept _, _, fun h => by simp [Mm.closed] at h, fixed_found hp' h1 h2⟩
  · have hp' : b.take 4 = asc "MSTN" := (Option.some.inj ((hp4 "MSTN" (by decide)).symm.trans hp)).symm
    rw [C30_master_not_accept b hp'] at h
    obtain ⟨h1, h2⟩ := fixed_ok h
    exact ⟨.refuse _, _, fun h => by simp [Mm.closed] at h, fixed_found hp' h1 h2⟩
  · have hp' : b.take 4 = asc "MSTC" := (Option.some.inj ((hp4 "MSTC" (by decide)).symm.trans hp)).symm
    rw [C30_master_closing b hp'] at h
    obtain ⟨h1, h2⟩ := fixed_ok h
    exact ⟨.masterClosing _, _, fun h => by simp [Mm.closed] at h, fixed_found hp' h1 h2⟩
  · have hp' : b.take 4 = asc "RPTC" := (Option.some.inj ((hp4 "RPTC" (by decide)).symm.trans hp)).symm
    by_cases h4 : u8 b 4 = 0x4C
    · rw [C32_mmdvm_closing b hp' h4] at h
      by_cases h9 : b.length < 9
      · rw [if_pos h9] at h; cases h
      · have h2 := slice_L (b := b) (by omega) h4
        exact ⟨.repeaterClosing _, _, fun h => by simp [Mm.closed] at h, fixed_found hp' (show 4 + 1 + 4 ≤ b.length by omega) h2⟩
    by_cases h5 : u8 b 4 < 128
    · obtain ⟨a1, a2, a3⟩ := C30_configuration_accept b hp' h5 h4
      by_cases hl2 : b.length < 302
      · rcases a1 hl2 with g | g <;> rw [g] at h <;> cases h
      by_cases ha : ∀ i, 8 ≤ i → i < b.length → u8 b i < 128
      · obtain ⟨y, hy⟩ := a2 (by omega) ha
        obtain ⟨-, -, g1, g2, g3, g4, g5, g6, g7, g8, g9, g10, gs, g11, g12, g13, g14⟩ := C30_configuration b y hp' hy
        obtain ⟨d, hd⟩ := ascii_found g10 (length_slice b 78 19 (by omega))
        obtain ⟨s, hs⟩ := ascii_found gs (length_slice b 97 1 (by omega))
        have hm : slice b 78 20 = [d.bytes, s.bytes].flatten := by
          rw [List.flatten_cons, List.flatten_cons, List.flatten_nil, List.append_nil, hd, hs]
          exact (Hytera.slice_append_slice b 78 19 1).symm
        obtain ⟨c, text, hct⟩ := columns_found (n := 8) (mid := [d.bytes, s.bytes]) (by omega) hm g1 g2 g3 g4 g5 g6 g7 g8 g9 g11 g12 g13 g14 rfl
        obtain ⟨id, hid⟩ := configId_found (b := b) (by omega) h5 h4
        refine ⟨.configuration id c d s text, [], fun _ => rfl, ?_⟩
        rw [List.append_nil, Mm.bytes, hid, ← hct]
        exact number_found hp' (by omega)
      · rw [a3 (by omega) (by push Not at ha; exact ha)] at h; cases h
    · rw [C32_mmdvm_high b hp' (of_u8_ge (by omega)) (by omega)] at h; cases h
  · have hp' : b.take 4 = asc "RPTP" := (Option.some.inj ((hp4 "RPTP" (by decide)).symm.trans hp)).symm
    rw [C30_repeater_ping b hp'] at h
    obtain ⟨h1, h2⟩ := fixed_ok h
    exact ⟨.ping _, _, fun h => by simp [Mm.closed] at h, fixed_found hp' h1 h2⟩
  · have hp' : b.take 4 = asc "MSTP" := (Option.some.inj ((hp4 "MSTP" (by decide)).symm.trans hp)).symm
    rw [C30_master_pong b hp'] at h
    obtain ⟨h1, h2⟩ := fixed_ok h
    exact ⟨.pong _, _, fun h => by simp [Mm.closed] at h, fixed_found hp' h1 h2⟩
  · have hp' : b.take 4 = asc "RPTO" := (Option.some.inj ((hp4 "RPTO" (by decide)).symm.trans hp)).symm
    obtain ⟨a1, a2, -⟩ := C30_options b hp'
    by_cases h8 : b.length < 8
    · rw [a1 h8] at h; cases h
    by_cases hs : ∃ s, encAscii s = some (b.drop 8)
    · obtain ⟨s, hs⟩ := hs
      obtain ⟨t, ht⟩ := asciiText_found hs
      refine ⟨.options (fieldAt b 32 32) t, [], fun _ => rfl, ?_⟩
      rw [List.append_nil, Mm.bytes, ht]
      exact number_found hp' (by omega)
    · rw [a2 (by omega) (by push Not at hs; exact hs)] at h; cases h
  · have hp' : b.take 4 = asc "RPTS" := (Option.some.inj ((hp4 "RPTS" (by decide)).symm.trans hp)).symm
    refine ⟨.beacon, b.drop 4, fun h => by simp [Mm.closed] at h, ?_⟩
    rw [Mm.bytes, ← hp', List.take_append_drop]
  · have hp' : b.take 4 = asc "DMRD" := (Option.some.inj ((hp4 "DMRD" (by decide)).symm.trans hp)).symm
    rw [C31_mmdvm b hp'] at h
    by_cases h53 : b.length < 53
    · rw [if_pos h53] at h; cases h
    · obtain ⟨y, rest, h1, h2⟩ := burst_found hp' (by omega)
      exact ⟨.burst y, rest, h1, h2⟩
  · have hp' : b.take 4 = asc "DMRG" := (Option.some.inj ((hp4 "DMRG" (by decide)).symm.trans hp)).symm
    rw [C30_position b hp'] at h
    by_cases h14 : b.length < 14
    · rw [if_pos h14] at h; cases h
    refine ⟨.position (fieldAt b 32 24) (fieldAt b 56 4) (fieldAt b 60 3) (fieldAt b 63 25) (fieldAt b 88 24), b.drop 14,
      fun h => by simp [Mm.closed] at h, ?_⟩
    have hf := drop_of_fields (m := b) (q := 4) (n := 10) (fs := f[fieldAt b 32 24, fieldAt b 56 4, fieldAt b 60 3, fieldAt b 63 25,
      fieldAt b 88 24]) (by rfl) (by omega) (by
        simp only [Fields, ofBitVec_w, ofBitVec_v, toNat_fieldAt, Nat.reduceAdd, Nat.reduceMul, and_self])
    rw [Mm.bytes, List.append_assoc, ← hf, ← hp', List.take_append_drop]
  · have hp' : b.take 4 = asc "DMRA" := (Option.some.inj ((hp4 "DMRA" (by decide)).symm.trans hp)).symm
    obtain ⟨a1, a2, -⟩ := C30_talker_alias b hp'
    by_cases h16 : b.length < 16
    · rw [a1 h16] at h; cases h
    by_cases hs : ∃ s, encAscii s = some (slice b 8 8)
    · obtain ⟨s, hs⟩ := hs
      obtain ⟨t, ht⟩ := ascii_found hs (length_slice b 8 8 (by omega))
      refine ⟨.talkerAlias (fieldAt b 32 24) (fieldAt b 56 8) t, b.drop 16, fun h => by simp [Mm.closed] at h, ?_⟩
      have hf := drop_of_fields (m := b) (q := 4) (n := 4) (fs := f[fieldAt b 32 24, fieldAt b 56 8]) (by rfl) (by omega) (by
        simp only [Fields, ofBitVec_w, ofBitVec_v, toNat_fieldAt, Nat.reduceAdd, Nat.reduceMul, and_self])
      rw [Mm.bytes, List.append_assoc, List.append_assoc, ht, ← drop_eq_slice b 8 8, ← hf, ← hp', List.take_append_drop]
    · rw [a2 (by omega) (by push Not at hs; exact hs)] at h; cases h

/-- C57: `Mmdvm2020.from_bytes(b)` returns `x` exactly if `b` is a packet that means `x` (with any octets after it, if the packet
does not have to end with the datagram), or begins with four ASCII characters that are no command. -/
theorem C57_mmdvm (b : Bytes) (x : Mmdvm2020) :
    fromBytes Mmdvm2020.read b = .ok x ↔
      (∃ (msg : Mm) (rest : Bytes), (msg.closed = true → rest = []) ∧ b = msg.bytes ++ rest ∧ x = msg.obj) ∨
      ∃ (command : Ascii 4) (rest : Bytes), command.1 ∉ Mm.commands.map String.toList ∧
        b = command.bytes ++ rest ∧ x = { command_prefix := command.1, command_data := none } := by
  have other (s : List Char) (hl : 4 ≤ b.length) (hs : encAscii s = some (b.take 4)) (hc : s ∉ Mm.commands.map String.toList) :
      fromBytes Mmdvm2020.read b = .ok { command_prefix := s, command_data := none } := by
    refine (C30_dispatch b).2.2.1 s hl hs ?_
    rw [List.lookup_eq_none_iff]
    intro p hp
    simp only [beq_iff_eq, beq_eq_false_iff_ne, ne_eq, bne_iff_ne]
    rintro rfl
    apply hc
    clear hc hs
    revert p
    decide
  constructor
  · intro h
    by_cases hc : x.command_prefix ∈ Mm.commands.map String.toList
    · obtain ⟨msg, rest, h1, rfl⟩ := mm_found h hc
      refine Or.inl ⟨msg, rest, h1, rfl, ?_⟩
      rw [mm_encoder msg rest h1] at h
      exact (Except.ok.inj h).symm
    · obtain ⟨hl, hp, -⟩ := (C30_dispatch b).2.2.2 x h
      obtain ⟨h1, h2⟩ := encAscii_ok hp
      refine Or.inr ⟨⟨x.command_prefix, ?_, h1⟩, b.drop 4, hc, ?_, ?_⟩
      · have := congrArg List.length h2
        rw [List.length_map, List.length_take] at this
        omega
      · show b = (x.command_prefix.map fun c => UInt8.ofNat c.toNat) ++ b.drop 4
        rw [h2, List.take_append_drop]
      · rw [other _ hl hp hc] at h
        exact (Except.ok.inj h).symm
  · rintro (⟨msg, rest, h1, rfl, rfl⟩ | ⟨command, rest, hc, rfl, rfl⟩)
    · exact mm_encoder msg rest h1
    · exact other _ (by rw [List.length_append, command.length_bytes]; omega)
        (by rw [encAscii_bytes]; exact congrArg some (List.take_left' command.length_bytes).symm) hc

/-! ### Examples -/

example : (Hb.accept 0x00230001#32 (some 0x01020304#32)).bytes = asc "MSTACK" ++ [0, 0x23, 0, 1, 1, 2, 3, 4] ∧
    (Hb.accept 0x00230001#32 (some 0x01020304#32)).closed = false ∧ (Hb.accept 0x00230001#32 none).closed = true := by decide
example : fromBytes Homebrew2015.read (asc "MSTACK" ++ [0, 0x23, 0, 1, 1, 2, 3, 4, 9]) =
    .ok (Hb.accept 0x00230001#32 (some 0x01020304#32)).obj :=
  (C57_homebrew _ _).2 (Or.inl ⟨.accept 0x00230001#32 (some 0x01020304#32), [9], by decide, by decide, rfl⟩)
-- the repeater identifier is present but the random number is cut off: no packet
example (x : Homebrew2015) : fromBytes Homebrew2015.read (asc "MSTACK" ++ [0, 0x23, 0, 1, 1, 2, 3]) ≠ .ok x := by
  rw [C29_master_repeater_ack _ rfl]
  exact fun h => by cases h
example : fromBytes Homebrew2015.read (asc "RPTO" ++ [1, 2]) = .ok { command_prefix := "RPTO".toList, command_data := none } :=
  (C57_homebrew _ _).2 (Or.inr ⟨⟨"RPTO".toList, by decide⟩, [1, 2], by decide, by decide, rfl⟩)
example : fromBytes Mmdvm2020.read (asc "RPTPING" ++ [0, 0x23, 0, 1]) = .ok (Mm.ping 0x00230001#32).obj :=
  (C57_mmdvm _ _).2 (Or.inl ⟨.ping 0x00230001#32, [], by decide, by decide, rfl⟩)
example : fromBytes Mmdvm2020.read (asc "RPTO" ++ [0, 0x23, 0, 1, 0x61]) = .ok (Mm.options 0x00230001#32 ⟨['a'], by decide⟩).obj :=
  (C57_mmdvm _ _).2 (Or.inl ⟨.options 0x00230001#32 ⟨['a'], by decide⟩, [], by decide, by decide, rfl⟩)

end Dmr.Wire
