import Verif.Unpack
import Verif.Spec.EtsiEncode
import Verif.Props.Encoders
import Verif.Props.Encoders2
import Verif.Props.Decoders
/-
C57: the ETSI decoders accept exactly what a transmitter (`Verif/Spec/EtsiEncode.lean`) can write and give exactly what the
transmitter wanted to say.
-/

set_option autoImplicit false
set_option linter.unusedSimpArgs false

namespace Dmr.Wire

open Spec Etsi

theorem ofOctets_at (b : Bytes) (q n : Nat) (h : q + n ≤ b.length) : (ofOctets (Octets.at b q n h)).v = bitsAt b (8 * q) (8 * n) := by
  show bigEndian (slice b q n) = _
  rw [bigEndian_eq]
  exact beVal_slice b q n h

set_option hygiene false in
/-- The octets `b` begin with the fields `fs` that are found in them. -/
macro "found" hs:ident : tactic => `(tactic| (
  refine begins_of_fields (by rfl) (by omega) ?_
  simp only [Fields, List.cons_append, List.nil_append, Service.flds, ofBitVec_w, ofBitVec_v, ofBool_w, ofBool_v, ofOctets_w, ofOctets_at, toNat_fieldAt, toNat_flagAt, Nat.zero_add, Nat.reduceAdd, Nat.reduceMul, $hs:ident, and_self, and_true, true_and]
  try first | rfl | exact ⟨rfl, trivial⟩))

/-! ### CSBK -/

theorem csbk_encoder (last protect : Bool) (feature_set : BitVec 8) (msg : Csbk) (rest : Bytes) :
    fromBytes DmrCsbk.read (msg.bytes last protect feature_set ++ rest) = .ok (msg.message last protect feature_set) := by
  cases msg with
  | voiceRequest options reserved target source =>
    exact C51_csbk_unit_to_unit_voice_request last protect feature_set _ _ _ _ _ _ reserved target source rest
  | voiceAnswer options answer target source =>
    exact C51_csbk_unit_to_unit_voice_answer last protect feature_set _ _ _ _ _ _ answer target source rest
  | channelTiming =>
    exact C51_csbk_channel_timing ..
  | negativeAck => exact C51_csbk_negative_ack_response ..
  | activation => exact C51_csbk_bs_outbound_activation ..
  | preamble => exact C51_csbk_preamble ..

theorem csbk_found {b : Bytes} (hl : 10 ≤ b.length) (ho : bitsAt b 2 6 ∈ Csbk.opcodes) :
    ∃ (last protect : Bool) (feature_set : BitVec 8) (msg : Csbk) (rest : Bytes), b = msg.bytes last protect feature_set ++ rest := by
  refine ⟨flagAt b 0, flagAt b 1, fieldAt b 8 8, ?_⟩
  simp only [Csbk.opcodes, List.mem_cons, List.not_mem_nil, or_false] at ho
  rcases ho with h | h | h | h | h | h
  · refine ⟨.voiceRequest ⟨flagAt b 16, flagAt b 17, fieldAt b 18 2, flagAt b 20, flagAt b 21, fieldAt b 22 2⟩ (fieldAt b 24 8)
      (fieldAt b 32 24) (fieldAt b 56 24), b.drop 10, ?_⟩
    simp only [Csbk.bytes, Csbk.flds, Csbk.opcode]
    found h
  · refine ⟨.voiceAnswer ⟨flagAt b 16, flagAt b 17, fieldAt b 18 2, flagAt b 20, flagAt b 21, fieldAt b 22 2⟩ (fieldAt b 24 8)
      (fieldAt b 32 24) (fieldAt b 56 24), b.drop 10, ?_⟩
    simp only [Csbk.bytes, Csbk.flds, Csbk.opcode]
    found h
  · refine ⟨.channelTiming (fieldAt b 16 11) (fieldAt b 27 5) (fieldAt b 32 20) (flagAt b 52) (fieldAt b 53 2) (flagAt b 55)
      (fieldAt b 56 20) (flagAt b 76) (fieldAt b 77 2) (flagAt b 79), b.drop 10, ?_⟩
    simp only [Csbk.bytes, Csbk.flds, Csbk.opcode]
    found h
  · refine ⟨.negativeAck (flagAt b 16) (flagAt b 17) (fieldAt b 18 6) (fieldAt b 24 8) (fieldAt b 32 24) (fieldAt b 56 24),
      b.drop 10, ?_⟩
    simp only [Csbk.bytes, Csbk.flds, Csbk.opcode]
    found h
  · refine ⟨.activation (fieldAt b 16 16) (fieldAt b 32 24) (fieldAt b 56 24), b.drop 10, ?_⟩
    simp only [Csbk.bytes, Csbk.flds, Csbk.opcode]
    found h
  · refine ⟨.preamble (fieldAt b 16 1) (fieldAt b 17 1) (fieldAt b 18 6) (fieldAt b 24 8) (fieldAt b 32 24) (fieldAt b 56 24),
      b.drop 10, ?_⟩
    simp only [Csbk.bytes, Csbk.flds, Csbk.opcode]
    found h

/-- C57: `DmrCsbk.from_bytes(b)` returns `x` exactly if `b` begins with a block that means `x`, or with the two octets of a block
with an opcode that is not in use. -/
theorem C57_csbk (b : Bytes) (x : DmrCsbk) :
    fromBytes DmrCsbk.read b = .ok x ↔
      (∃ (last protect : Bool) (feature_set : BitVec 8) (msg : Csbk) (rest : Bytes),
        b = msg.bytes last protect feature_set ++ rest ∧ x = msg.message last protect feature_set) ∨
      ∃ (last protect : Bool) (opcode : BitVec 6) (feature_set : BitVec 8) (rest : Bytes), opcode.toNat ∉ Csbk.opcodes ∧
        b = pack f[last, protect, opcode, feature_set] ++ rest ∧
        x = { last_block := last, protect_flag := protect, csbk_opcode := resolveEnum _ opcode.toNat,
              feature_set_id := feature_set.toNat, csbk_data := none } := by
  have unknown : ∀ (last protect : Bool) (opcode : BitVec 6) (feature_set : BitVec 8) (rest : Bytes),
      opcode.toNat ∉ Csbk.opcodes → fromBytes DmrCsbk.read (pack f[last, protect, opcode, feature_set] ++ rest) =
        .ok { last_block := last, protect_flag := protect, csbk_opcode := resolveEnum _ opcode.toNat,
              feature_set_id := feature_set.toNat, csbk_data := none } := by
    intro last protect opcode feature_set rest hop
    simp only [Csbk.opcodes, List.mem_cons, List.not_mem_nil, or_false, not_or] at hop
    obtain ⟨h4, h5, h7, h38, h56, h61⟩ := hop
    rw [DmrCsbk.parses.fromBytes]
    packed
    have h2 : 2 ≤ m.length := by omega
    simp only [DmrCsbk.spec, upTo, DmrCsbk.bodySpec, h2, flagAt, hf, toNat_beq_one, next, Nat.mul_zero, Nat.zero_add,
      h4, h5, h7, h38, h56, h61, if_true, if_false]
    rfl
  constructor
  · intro h
    have h0 := h
    rw [DmrCsbk.parses.fromBytes] at h
    obtain ⟨e, h⟩ := of_map_fst_ok h
    unfold DmrCsbk.spec at h
    obtain ⟨hl, h⟩ := of_upTo_ok h
    obtain ⟨data, e', hd, he, h⟩ := of_next_ok h
    simp only [Nat.mul_zero, Nat.zero_add] at hd hl
    by_cases ho : bitsAt b 2 6 ∈ Csbk.opcodes
    · left
      have hl : 10 ≤ b.length := by
        unfold DmrCsbk.bodySpec at hd
        simp only [Csbk.opcodes, List.mem_cons, List.not_mem_nil, or_false] at ho
        rcases ho with ho | ho | ho | ho | ho | ho <;> rw [ho] at hd <;>
          simp only [Nat.reduceEqDiff, if_true, if_false] at hd <;> obtain ⟨a, ha, -⟩ := of_as_ok hd <;>
          obtain ⟨-, -, hl⟩ := of_whole_ok ha <;> exact hl
      obtain ⟨last, protect, fs, msg, rest, rfl⟩ := csbk_found hl ho
      rw [csbk_encoder] at h0
      exact ⟨last, protect, fs, msg, rest, rfl, (Except.ok.inj h0).symm⟩
    · right
      have e : b = pack f[flagAt b 0, flagAt b 1, fieldAt b 2 6, fieldAt b 8 8] ++ b.drop 2 := by found hl
      have hn : (fieldAt b 2 6).toNat ∉ Csbk.opcodes := by rw [toNat_fieldAt]; exact ho
      refine ⟨_, _, _, _, _, hn, e, ?_⟩
      rw [e, unknown _ _ _ _ _ hn] at h0
      exact (Except.ok.inj h0).symm
  · rintro (⟨last, protect, fs, msg, rest, rfl, rfl⟩ | ⟨last, protect, opcode, fs, rest, hn, rfl, rfl⟩)
    · exact csbk_encoder ..
    · exact unknown _ _ _ _ _ hn

/-- A preamble, and a block with the unused opcode 2 of which only two octets have arrived. -/
example : fromBytes DmrCsbk.read [0xbd, 0, 0x80, 3, 0, 0, 9, 0x23, 0x37, 0x45] =
      .ok ((Csbk.preamble 1#1 0#1 0#6 3#8 9#24 0x233745#24).message true false 0#8) ∧
    fromBytes DmrCsbk.read [0x82, 7] = .ok ⟨true, false, resolveEnum _ 2, 7, none⟩ :=
  ⟨(C57_csbk _ _).2 (.inl ⟨_, _, _, _, [], by decide, rfl⟩),
    (C57_csbk _ _).2 (.inr ⟨true, false, 2#6, 7#8, [], by decide, by decide, rfl⟩)⟩
/-- An announced preamble that is cut short is not accepted. -/
example (x : DmrCsbk) : fromBytes DmrCsbk.read [0xbd, 0, 0x80] ≠ .ok x := by
  have : fromBytes DmrCsbk.read [0xbd, 0, 0x80] = .error .eof := by decide +kernel
  rw [this]
  intro h
  cases h

/-! ### Full link control -/

theorem flc_read (protect reserved : Bool) (feature_set : BitVec 8) (msg : Flc) (post : Bytes) :
    ∃ m, msg.bytes protect reserved feature_set ++ post = m ∧ m.length = 9 + post.length ∧ m.drop 9 = post ∧
      flagAt m 0 = protect ∧ flagAt m 1 = reserved ∧ bitsAt m 2 6 = msg.opcode.toNat ∧ bitsAt m 8 8 = feature_set.toNat ∧
      FullLinkControl.bodySpec (bitsAt m 2 6) m 2 = .ok (some msg.obj, 9) := by
  cases msg <;> simp only [Flc.bytes, Flc.flds, Flc.opcode, Flc.obj] <;> packed <;> have h9 : 9 ≤ m.length := (by omega)
  all_goals
    refine ⟨m, rfl, hl, hd, ?_⟩
    simp only [FullLinkControl.bodySpec, FullLinkControl.GroupVoiceChannelUser.spec, FullLinkControl.UnitToUnitVoiceChannelUser.spec,
      FullLinkControl.TalkerAliasHeader.spec, FullLinkControl.TalkerAliasContinuation.spec, FullLinkControl.GpsInfoLcPdu.spec, h9,
      flagAt, hf, toNat_beq_one, whole, Parsed.as, Nat.reduceMul, Nat.reduceAdd, Nat.reduceEqDiff, if_true, if_false, true_and]
    try exact ⟨rfl, trivial⟩

theorem flc_encoder (protect reserved : Bool) (feature_set : BitVec 8) (msg : Flc) (last : FlcEnd) :
    fromBytes FullLinkControl.read (msg.bytes protect reserved feature_set ++ last.bytes) =
      .ok (msg.message protect reserved feature_set last) := by
  obtain ⟨m, hm, hl, hd, h0, h1, h2, h8, hb⟩ := flc_read protect reserved feature_set msg last.bytes
  rw [hm, FullLinkControl.fromBytes_eq, FullLinkControl.spec, upTo, if_pos (by omega), hb, next]
  simp only [h0, h1, h2, h8]
  rw [if_pos (by omega)]
  cases last with
  | crc c rest =>
    simp only [FlcEnd.bytes, List.length_append, c.len] at hl hd
    rw [if_pos (by omega), if_neg (by omega), slice, hd, take_octets]
    rfl
  | neither two =>
    simp only [FlcEnd.bytes, two.len] at hl hd
    rw [if_neg (by omega), if_neg (by omega)]
    rfl
  | cs5 checksum spare =>
    have hf := fields_of_drop (fs := f[checksum, spare]) (post := []) (by simp [width]) (by rw [hd, FlcEnd.bytes, List.append_nil]) (show 9 ≤ m.length by omega)
    simp only [Fields, ofBitVec_w, ofBitVec_v, Nat.reduceMul] at hf
    have hl1 : (pack f[checksum, spare]).length = 1 := by simp [length_pack, width]
    simp only [FlcEnd.bytes, hl1] at hl
    rw [if_neg (by omega), if_pos (by omega), upTo, if_pos (by omega)]
    simp only [Nat.reduceMul, hf]
    rfl

theorem flc_unknown (protect reserved : Bool) (opcode : BitVec 6) (feature_set : BitVec 8) (last : FlcUnknownEnd)
    (hop : opcode.toNat ∉ Flc.opcodes) :
    fromBytes FullLinkControl.read (pack f[protect, reserved, opcode, feature_set] ++ last.bytes) =
      .ok (unknownFlc protect reserved opcode feature_set last) := by
  simp only [Flc.opcodes, List.mem_cons, List.not_mem_nil, or_false, not_or] at hop
  obtain ⟨o0, o3, o4, o5, o6, o7, o8⟩ := hop
  rw [FullLinkControl.fromBytes_eq]
  packed
  have hb : FullLinkControl.bodySpec (bitsAt m 2 6) m 2 = .ok (none, 2) := by
    simp only [FullLinkControl.bodySpec, hf, o0, o3, o4, o5, o6, o7, o8, if_false]
  rw [FullLinkControl.spec, upTo, if_pos (by omega), hb, next]
  simp only [flagAt, hf, toNat_beq_one]
  rw [if_pos (by omega)]
  cases last with
  | crc c rest h =>
    simp only [FlcUnknownEnd.bytes, List.length_append, c.len] at hl hd
    rw [if_pos (by omega), if_neg (by omega), slice, hd, take_octets]
    rfl
  | both c checksum spare rest h =>
    simp only [FlcUnknownEnd.bytes, List.append_assoc] at hl hd
    have hd' : m.drop 5 = pack f[checksum, spare] ++ rest := by
      rw [← drop_octets c (pack f[checksum, spare] ++ rest), ← hd, List.drop_drop]
    have hl1 : (pack f[checksum, spare]).length = 1 := by simp [length_pack, width]
    simp only [List.length_append, c.len, hl1] at hl
    have hf := fields_of_drop (fs := f[checksum, spare]) (by simp [width]) hd' (show 5 ≤ m.length by omega)
    simp only [Fields, ofBitVec_w, ofBitVec_v, Nat.reduceMul] at hf
    rw [if_pos (by omega), if_pos (by omega), upTo, if_pos (by omega), slice, hd, take_octets]
    simp only [Nat.reduceMul, Nat.reduceAdd, hf]
    rfl
  | cs5 checksum spare rest h =>
    simp only [FlcUnknownEnd.bytes] at hl hd
    have hf := fields_of_drop (fs := f[checksum, spare]) (by simp [width]) hd (show 2 ≤ m.length by omega)
    simp only [Fields, ofBitVec_w, ofBitVec_v, Nat.reduceMul] at hf
    have hl1 : (pack f[checksum, spare]).length = 1 := by simp [length_pack, width]
    simp only [List.length_append, hl1] at hl
    rw [if_neg (by omega), if_pos (by omega), upTo, if_pos (by omega)]
    simp only [Nat.reduceMul, hf]
    rfl

theorem flc_found {b : Bytes} (hl : 9 ≤ b.length) (ho : bitsAt b 2 6 ∈ Flc.opcodes) :
    ∃ (protect reserved : Bool) (feature_set : BitVec 8) (msg : Flc),
      b = msg.bytes protect reserved feature_set ++ b.drop 9 := by
  refine ⟨flagAt b 0, flagAt b 1, fieldAt b 8 8, ?_⟩
  simp only [Flc.opcodes, List.mem_cons, List.not_mem_nil, or_false] at ho
  rcases ho with h | h | h | h | h | h | h
  · refine ⟨.groupVoice (fieldAt b 16 8) (fieldAt b 24 24) (fieldAt b 48 24), ?_⟩
    simp only [Flc.bytes, Flc.flds, Flc.opcode]
    found h
  · refine ⟨.unitVoice (fieldAt b 16 8) (fieldAt b 24 24) (fieldAt b 48 24), ?_⟩
    simp only [Flc.bytes, Flc.flds, Flc.opcode]
    found h
  · refine ⟨.aliasHeader (fieldAt b 16 2) (fieldAt b 18 5) (fieldAt b 23 49), ?_⟩
    simp only [Flc.bytes, Flc.flds, Flc.opcode]
    found h
  · refine ⟨.aliasBlock1 (fieldAt b 16 56), ?_⟩
    simp only [Flc.bytes, Flc.flds, Flc.opcode]
    found h
  · refine ⟨.aliasBlock2 (fieldAt b 16 56), ?_⟩
    simp only [Flc.bytes, Flc.flds, Flc.opcode]
    found h
  · refine ⟨.aliasBlock3 (fieldAt b 16 56), ?_⟩
    simp only [Flc.bytes, Flc.flds, Flc.opcode]
    found h
  · refine ⟨.gps (fieldAt b 16 4) (fieldAt b 20 3) (fieldAt b 23 25) (fieldAt b 48 24), ?_⟩
    simp only [Flc.bytes, Flc.flds, Flc.opcode]
    found h

theorem flcEnd_found {b : Bytes} (hl : 1 ≤ b.length) : ∃ last : FlcEnd, b = last.bytes := by
  by_cases h3 : 3 ≤ b.length
  · exact ⟨.crc ⟨b.take 3, by rw [List.length_take]; omega⟩ (b.drop 3), (List.take_append_drop ..).symm⟩
  by_cases h2 : b.length = 2
  · exact ⟨.neither ⟨b, h2⟩, rfl⟩
  refine ⟨.cs5 (fieldAt b 0 5) (fieldAt b 5 3), ?_⟩
  have e : b = pack f[fieldAt b 0 5, fieldAt b 5 3] ++ b.drop 1 := by found hl
  rwa [List.drop_of_length_le (by omega), List.append_nil] at e

theorem flcUnknownEnd_found {b : Bytes} (hl : 1 ≤ b.length) (h3 : b.length ≠ 3) : ∃ last : FlcUnknownEnd, b = last.bytes := by
  by_cases h9 : 9 ≤ b.length
  · exact ⟨.crc ⟨b.take 3, by rw [List.length_take]; omega⟩ (b.drop 3) (by rw [List.length_drop]; omega),
      (List.take_append_drop ..).symm⟩
  by_cases h4 : 4 ≤ b.length
  · obtain ⟨c, hc⟩ : ∃ c, c = b.drop 3 := ⟨_, rfl⟩
    have hl' : c.length = b.length - 3 := by rw [hc, List.length_drop]
    have e : c = pack f[fieldAt c 0 5, fieldAt c 5 3] ++ c.drop 1 := by found hl
    refine ⟨.both ⟨b.take 3, by rw [List.length_take]; omega⟩ (fieldAt c 0 5) (fieldAt c 5 3) (c.drop 1)
      (by rw [List.length_drop]; omega), ?_⟩
    rw [FlcUnknownEnd.bytes, List.append_assoc, ← e, hc, List.take_append_drop]
  · have e : b = pack f[fieldAt b 0 5, fieldAt b 5 3] ++ b.drop 1 := by found hl
    exact ⟨.cs5 (fieldAt b 0 5) (fieldAt b 5 3) (b.drop 1) (by rw [List.length_drop]; omega), e⟩

/-- C57: `FullLinkControl.from_bytes(b)` returns `x` exactly if `b` is a message and one of its ends that mean `x`, or the two
octets of a message with an opcode that is not in use and one of its ends. -/
theorem C57_flc (b : Bytes) (x : FullLinkControl) :
    fromBytes FullLinkControl.read b = .ok x ↔
      (∃ (protect reserved : Bool) (feature_set : BitVec 8) (msg : Flc) (last : FlcEnd),
        b = msg.bytes protect reserved feature_set ++ last.bytes ∧ x = msg.message protect reserved feature_set last) ∨
      ∃ (protect reserved : Bool) (opcode : BitVec 6) (feature_set : BitVec 8) (last : FlcUnknownEnd), opcode.toNat ∉ Flc.opcodes ∧
        b = pack f[protect, reserved, opcode, feature_set] ++ last.bytes ∧
        x = unknownFlc protect reserved opcode feature_set last := by
  constructor
  · intro h
    have h0 := h
    rw [FullLinkControl.fromBytes_eq] at h
    unfold FullLinkControl.spec at h
    obtain ⟨hl, h⟩ := of_upTo_ok h
    obtain ⟨data, e, hd, he, h⟩ := of_next_ok h
    by_cases ho : bitsAt b 2 6 ∈ Flc.opcodes
    · left
      have h9 : 9 ≤ b.length ∧ e = 9 := by
        unfold FullLinkControl.bodySpec at hd
        simp only [Flc.opcodes, List.mem_cons, List.not_mem_nil, or_false] at ho
        rcases ho with ho | ho | ho | ho | ho | ho | ho <;> rw [ho] at hd <;>
          simp only [Nat.reduceEqDiff, if_true, if_false] at hd <;> obtain ⟨a, ha, -⟩ := of_as_ok hd <;>
          obtain ⟨-, he, hl⟩ := of_whole_ok ha <;> exact ⟨hl, he⟩
      have h10 : 10 ≤ b.length := by
        by_contra hc
        obtain ⟨_, rfl⟩ := h9
        dsimp only at h
        rw [if_neg (by omega), if_pos (by omega), upTo, if_neg (by omega)] at h
        cases h
      obtain ⟨protect, reserved, fs, msg, e1⟩ := flc_found h9.1 ho
      obtain ⟨last, e2⟩ := flcEnd_found (b := b.drop 9) (by rw [List.length_drop]; omega)
      rw [e2] at e1
      rw [e1, flc_encoder] at h0
      exact ⟨protect, reserved, fs, msg, last, e1, (Except.ok.inj h0).symm⟩
    · right
      have hn : (fieldAt b 2 6).toNat ∉ Flc.opcodes := by rw [toNat_fieldAt]; exact ho
      have he : e = 2 := by
        simp only [Flc.opcodes, List.mem_cons, List.not_mem_nil, or_false, not_or] at ho
        obtain ⟨o0, o3, o4, o5, o6, o7, o8⟩ := ho
        simp only [FullLinkControl.bodySpec, o0, o3, o4, o5, o6, o7, o8, if_false] at hd
        cases hd
        rfl
      subst he
      have h3 : 3 ≤ b.length ∧ b.length ≠ 5 := by
        dsimp only at h
        constructor
        · by_contra hc
          rw [if_neg (by omega), if_pos (by omega), upTo, if_neg (by omega)] at h
          cases h
        · intro hc
          rw [if_pos (by omega), if_pos (by omega), upTo, if_neg (by omega)] at h
          cases h
      have e1 : b = pack f[flagAt b 0, flagAt b 1, fieldAt b 2 6, fieldAt b 8 8] ++ b.drop 2 := by found hl
      obtain ⟨last, e2⟩ := flcUnknownEnd_found (b := b.drop 2) (by rw [List.length_drop]; omega) (by rw [List.length_drop]; omega)
      rw [e2] at e1
      refine ⟨_, _, _, _, last, hn, e1, ?_⟩
      rw [e1, flc_unknown _ _ _ _ _ hn] at h0
      exact (Except.ok.inj h0).symm
  · rintro (⟨protect, reserved, fs, msg, last, rfl, rfl⟩ | ⟨protect, reserved, opcode, fs, last, hn, rfl, rfl⟩)
    · exact flc_encoder ..
    · exact flc_unknown _ _ _ _ _ hn

/-- The same voice user message as a full LC, as an embedded LC, and with two octets that are not looked at. -/
example : (let m := Flc.groupVoice 0x20#8 9#24 0x233745#24
    fromBytes FullLinkControl.read [0, 0, 0x20, 0, 0, 9, 0x23, 0x37, 0x45, 1, 2, 3] =
      .ok (m.message false false 0#8 (.crc ⟨[1, 2, 3], rfl⟩ [])) ∧
    fromBytes FullLinkControl.read [0, 0, 0x20, 0, 0, 9, 0x23, 0x37, 0x45, 0xA8] =
      .ok (m.message false false 0#8 (.cs5 0x15#5 0#3)) ∧
    fromBytes FullLinkControl.read [0, 0, 0x20, 0, 0, 9, 0x23, 0x37, 0x45, 1, 2] =
      .ok (m.message false false 0#8 (.neither ⟨[1, 2], rfl⟩))) :=
  ⟨(C57_flc _ _).2 (.inl ⟨_, _, _, _, _, by decide, rfl⟩), (C57_flc _ _).2 (.inl ⟨_, _, _, _, _, by decide, rfl⟩),
    (C57_flc _ _).2 (.inl ⟨_, _, _, _, _, by decide, rfl⟩)⟩
/-- An unknown opcode (63) with three, six and eleven octets. -/
example : fromBytes FullLinkControl.read [63, 0, 0xA8] = .ok (unknownFlc false false 63#6 0#8 (.cs5 0x15#5 0#3 [] (by decide))) ∧
    fromBytes FullLinkControl.read [63, 0, 1, 2, 3, 0xA8] =
      .ok (unknownFlc false false 63#6 0#8 (.both ⟨[1, 2, 3], rfl⟩ 0x15#5 0#3 [] (by decide))) ∧
    fromBytes FullLinkControl.read [63, 0, 1, 2, 3, 4, 5, 6, 7, 8, 9] =
      .ok (unknownFlc false false 63#6 0#8 (.crc ⟨[1, 2, 3], rfl⟩ [4, 5, 6, 7, 8, 9] (by decide))) :=
  ⟨(C57_flc _ _).2 (.inr ⟨_, _, _, _, _, by decide, by decide, rfl⟩), (C57_flc _ _).2 (.inr ⟨_, _, _, _, _, by decide, by decide, rfl⟩),
    (C57_flc _ _).2 (.inr ⟨_, _, _, _, _, by decide, by decide, rfl⟩)⟩

/-! ### Data header -/

theorem pack_octets {n : Nat} (x : Octets n) : pack f[x] = x.val := by
  have e : width f[x] = 8 * n := rfl
  rw [pack, e, number, number, Nat.mul_div_cancel_left _ (by decide), width, Nat.pow_zero, Nat.mul_one, Nat.add_zero,
    octets_ofOctets]

theorem Header.length_flds (msg : Header) : (pack msg.flds).length = 10 := by
  have e : width msg.flds = 8 * 10 := by cases msg <;> rfl
  rw [length_pack, e]

theorem header_encoder (msg : Header) (crc : Octets 2) (rest : Bytes) :
    headerData (msg.bytes crc ++ rest) = .ok (msg.obj crc) := by
  cases msg with
  | udt => exact C51_data_header_udt (hcrc := crc.len) ..
  | response => exact C51_data_header_response (hcrc := crc.len) ..
  | unconfirmed => exact C51_data_header_unconfirmed (hcrc := crc.len) ..
  | confirmed => exact C51_data_header_confirmed (hcrc := crc.len) ..
  | shortDefined => exact C51_data_header_short_defined (hcrc := crc.len) ..
  | shortStatus => exact C51_data_header_short_status_precoded (hcrc := crc.len) ..
  | proprietary sap mfid data =>
    have := C51_data_header_proprietary sap mfid data.val crc.val rest data.len crc.len
    rw [← pack_octets data, ← pack_append f[sap, 15#4, mfid] f[data] (by simp [width]) (by simp [width])] at this
    rw [Header.bytes, Header.flds, Header.obj, ← pack_octets data]
    exact this
  | other skip format data h =>
    have hl : (Header.bytes (.other skip format data h) crc).length = 12 := by
      rw [Header.bytes, List.length_append, Header.length_flds, crc.len]
    rw [headerData_append _ _ hl, Header.bytes]
    have hf := fields_pack f[skip, format, data] crc.val (by simp [width])
    simp only [Fields, ofBitVec_w, ofBitVec_v, Nat.zero_add] at hf
    simp only [List.mem_cons, List.not_mem_nil, or_false, not_or] at h
    obtain ⟨h0, h1, h2, h3, h13, h14, h15⟩ := h
    simp only [Header.flds, DmrDataHeader.bodySpec, hf, h0, h1, h2, h3, h13, h14, h15, if_false, Header.obj]

theorem header_found {b : Bytes} (hl : 12 ≤ b.length) : ∃ (msg : Header) (crc : Octets 2) (rest : Bytes), b = msg.bytes crc ++ rest := by
  have key : ∀ msg : Header, b = pack msg.flds ++ b.drop 10 → ∃ (msg : Header) (crc : Octets 2) (rest : Bytes),
      b = msg.bytes crc ++ rest := by
    intro msg h
    refine ⟨msg, ⟨(b.drop 10).take 2, by rw [List.length_take, List.length_drop]; omega⟩, (b.drop 10).drop 2, ?_⟩
    rw [Header.bytes, List.append_assoc, List.take_append_drop, ← h]
  by_cases h0 : bitsAt b 4 4 = 0
  · refine key (.udt (flagAt b 0) (flagAt b 1) (fieldAt b 2 2) (fieldAt b 8 4) (fieldAt b 12 4) (fieldAt b 16 24) (fieldAt b 40 24)
      (fieldAt b 64 5) (flagAt b 69) (fieldAt b 70 2) (flagAt b 72) (flagAt b 73) (fieldAt b 74 6)) ?_
    simp only [Header.flds]
    found h0
  by_cases h1 : bitsAt b 4 4 = 1
  · refine key (.response (flagAt b 0) (flagAt b 1) (fieldAt b 2 2) (fieldAt b 8 4) (fieldAt b 12 4) (fieldAt b 16 24) (fieldAt b 40 24)
      (flagAt b 64) (fieldAt b 65 7) (fieldAt b 72 2) (fieldAt b 74 3) (fieldAt b 77 3)) ?_
    simp only [Header.flds]
    found h1
  by_cases h2 : bitsAt b 4 4 = 2
  · refine key (.unconfirmed (flagAt b 0) (flagAt b 1) (flagAt b 2) (flagAt b 3) (fieldAt b 8 4) (fieldAt b 12 4) (fieldAt b 16 24)
      (fieldAt b 40 24) (flagAt b 64) (fieldAt b 65 7) (fieldAt b 72 4) (fieldAt b 76 4)) ?_
    simp only [Header.flds]
    found h2
  by_cases h3 : bitsAt b 4 4 = 3
  · refine key (.confirmed (flagAt b 0) (flagAt b 1) (flagAt b 2) (flagAt b 3) (fieldAt b 8 4) (fieldAt b 12 4) (fieldAt b 16 24)
      (fieldAt b 40 24) (flagAt b 64) (fieldAt b 65 7) (flagAt b 72) (fieldAt b 73 3) (fieldAt b 76 4)) ?_
    simp only [Header.flds]
    found h3
  by_cases h13 : bitsAt b 4 4 = 13
  · refine key (.shortDefined (flagAt b 0) (flagAt b 1) (fieldAt b 2 2) (fieldAt b 8 4) (fieldAt b 12 4) (fieldAt b 16 24)
      (fieldAt b 40 24) (fieldAt b 64 6) (flagAt b 70) (flagAt b 71) (fieldAt b 72 8)) ?_
    simp only [Header.flds]
    found h13
  by_cases h14 : bitsAt b 4 4 = 14
  · refine key (.shortStatus (flagAt b 0) (flagAt b 1) (fieldAt b 2 2) (fieldAt b 8 4) (fieldAt b 12 4) (fieldAt b 16 24)
      (fieldAt b 40 24) (fieldAt b 64 3) (fieldAt b 67 3) (fieldAt b 70 10)) ?_
    simp only [Header.flds]
    found h14
  by_cases h15 : bitsAt b 4 4 = 15
  · refine key (.proprietary (fieldAt b 0 4) (fieldAt b 8 8) (.at b 2 8 (by omega))) ?_
    simp only [Header.flds]
    found h15
  · refine key (.other (fieldAt b 0 4) (fieldAt b 4 4) (.at b 1 9 (by omega)) ?_) ?_
    · rw [toNat_fieldAt]; simp only [List.mem_cons, List.not_mem_nil, or_false, not_or]; exact ⟨h0, h1, h2, h3, h13, h14, h15⟩
    · simp only [Header.flds]
      found h15

/-- C57: `DmrDataHeader.from_bytes(b).data` is `x` exactly if `b` begins with a header that means `x`. -/
theorem C57_data_header (b : Bytes) (x : DmrDataHeader.DataUnion) :
    headerData b = .ok x ↔ ∃ (msg : Header) (crc : Octets 2) (rest : Bytes), b = msg.bytes crc ++ rest ∧ x = msg.obj crc := by
  constructor
  · intro h
    have hl : 12 ≤ b.length := by
      by_contra hc
      by_cases h1 : 1 ≤ b.length
      · obtain ⟨o, ho, ha⟩ := C25_short b h1 (by omega)
        have ha := ha 1
        simp only [accesses, List.replicate, List.cons.injEq, and_true] at ha
        simp only [headerData, ho, ha] at h
        cases h
      · have : b = [] := List.eq_nil_of_length_eq_zero (by omega)
        subst this
        cases h
    obtain ⟨msg, crc, rest, rfl⟩ := header_found hl
    rw [header_encoder] at h
    exact ⟨msg, crc, rest, rfl, (Except.ok.inj h).symm⟩
  · rintro ⟨msg, crc, rest, rfl, rfl⟩
    exact header_encoder ..

/-- A confirmed data header, and one of the unused format 7. -/
example : headerData [0x43, 0x40, 0, 0, 9, 0x23, 0x37, 0x45, 0x81, 0x12, 0xAA, 0xBB] =
      .ok ((Header.confirmed false true false false 4#4 0#4 9#24 0x233745#24 true 1#7 false 1#3 2#4).obj ⟨[0xAA, 0xBB], rfl⟩) ∧
    headerData [0x47, 1, 2, 3, 4, 5, 6, 7, 8, 9, 10, 11] = .ok (.dataHeaderUndefined ⟨[0x47, 1, 2, 3, 4, 5, 6, 7, 8, 9, 10, 11]⟩) :=
  ⟨(C57_data_header _ _).2 ⟨_, _, [], by decide, rfl⟩,
    (C57_data_header _ _).2 ⟨.other 4#4 7#4 ⟨[1, 2, 3, 4, 5, 6, 7, 8, 9], rfl⟩ (by decide), ⟨[10, 11], rfl⟩, [], by decide, by decide⟩⟩

/-! ### Compressed UDP/IPv4 header -/

theorem ofOctets_two (x : Octets 2) : ∃ y : BitVec 16, ofBitVec y = ofOctets x ∧ octets 2 y.toNat = x.val := by
  refine ⟨⟨⟨(ofOctets x).v, (ofOctets x).lt⟩⟩, rfl, octets_ofOctets x⟩

theorem Port.extra_length (p : Port) : p.extra.length = if p.id = 0 then 2 else 0 := by
  cases p with
  | known id h => rw [Port.id, if_neg h]; rfl
  | extended n => exact n.len

theorem Port.number_eq (p : Port) : (if p.id = 0 then some p.extra else none) = p.number := by
  cases p with
  | known id h => rw [Port.id, if_neg h]; rfl
  | extended n => rfl

theorem udp_encoder (x : Udp) : fromBytes DmrIpUdp.UdpIpv4CompressedHeader.read x.bytes = .ok x.obj := by
  obtain ⟨i, hi, hv⟩ := ofOctets_two x.identification
  have := C51_udp_ipv4_compressed i x.source_address x.destination_address x.opcode_msb x.opcode_lsb x.source.id x.destination.id
    x.source.extra x.destination.extra x.user_data x.source.extra_length x.destination.extra_length
  rw [hi, hv, Port.number_eq, Port.number_eq, List.append_assoc] at this
  exact this

/-- C57: `UdpIpv4CompressedHeader.from_bytes(b)` returns `x` exactly if `b` is a header with its user data that means `x`. -/
theorem C57_udp (b : Bytes) (x : DmrIpUdp.UdpIpv4CompressedHeader) :
    fromBytes DmrIpUdp.UdpIpv4CompressedHeader.read b = .ok x ↔ ∃ msg : Udp, b = msg.bytes ∧ x = msg.obj := by
  constructor
  · intro h
    have h0 := h
    rw [DmrIpUdp.UdpIpv4CompressedHeader.parses.fromBytes] at h
    obtain ⟨e, h⟩ := of_map_fst_ok h
    unfold DmrIpUdp.UdpIpv4CompressedHeader.spec at h
    obtain ⟨hl, h⟩ := of_upTo_ok h
    obtain ⟨p1, e1, hp1, he1, h⟩ := of_next_ok h
    obtain ⟨p2, e2, hp2, he2, h⟩ := of_next_ok h
    simp only [Nat.mul_zero, Nat.zero_add] at hl hp1 hp2
    have e : b = pack f[Octets.at b 0 2 (by omega), fieldAt b 16 4, fieldAt b 20 4, flagAt b 24, fieldAt b 25 7, flagAt b 32,
      fieldAt b 33 7] ++ b.drop 5 := by found hl
    have key : ∀ (o : Nat) (c : Nat) (e : Nat) (p : Option Bytes), o ≤ b.length → c < 128 →
        optPart (c = 0) (whole 2 (fun b o => slice b o 2) b o) o = .ok (p, e) →
        ∃ port : Port, port.id.toNat = c ∧ b.drop o = port.extra ++ b.drop e := by
      intro o c e p ho hc h
      unfold optPart at h
      by_cases h0 : c = 0
      · rw [if_pos h0] at h
        obtain ⟨a, ha, -⟩ := of_as_ok h
        obtain ⟨rfl, rfl, hl⟩ := of_whole_ok ha
        refine ⟨.extended (.at b o 2 hl), by rw [h0]; rfl, ?_⟩
        show b.drop o = slice b o 2 ++ b.drop (o + 2)
        rw [slice, ← List.drop_drop, List.take_append_drop]
      · rw [if_neg h0] at h
        cases h
        refine ⟨.known (.ofNat 7 c) ?_, by rw [Port.id, BitVec.toNat_ofNat, Nat.mod_eq_of_lt hc], rfl⟩
        intro he
        have := congrArg BitVec.toNat he
        rw [BitVec.toNat_ofNat, Nat.mod_eq_of_lt hc] at this
        exact h0 this
    obtain ⟨s, hs, es⟩ := key _ _ _ _ (by omega) (bitsAt_lt _ _ _) hp1
    obtain ⟨d, hd, ed⟩ := key _ _ _ _ (by omega) (bitsAt_lt _ _ _) hp2
    have is : fieldAt b 25 7 = s.id := BitVec.eq_of_toNat_eq (by rw [toNat_fieldAt, hs])
    have id : fieldAt b 33 7 = d.id := BitVec.eq_of_toNat_eq (by rw [toNat_fieldAt, hd])
    rw [is, id, es, ed] at e
    refine ⟨⟨_, _, _, _, s, _, d, b.drop e2⟩, e, ?_⟩
    rw [e] at h0
    have := udp_encoder ⟨Octets.at b 0 2 (by omega), fieldAt b 16 4, fieldAt b 20 4, flagAt b 24, s, flagAt b 32, d, b.drop e2⟩
    exact Except.ok.inj (h0.symm.trans this)
  · rintro ⟨msg, rfl, rfl⟩
    exact udp_encoder msg

/-- A known source port, an extended destination port (4007) and three octets of data. -/
example : fromBytes DmrIpUdp.UdpIpv4CompressedHeader.read [1, 2, 0x11, 2, 0, 0x0F, 0xA7, 5, 6, 7] =
    .ok (Udp.obj ⟨⟨[1, 2], rfl⟩, 1#4, 1#4, false, .known 2#7 (by decide), false, .extended ⟨[0x0F, 0xA7], rfl⟩, [5, 6, 7]⟩) :=
  (C57_udp _ _).2 ⟨_, by decide, rfl⟩

end Dmr.Wire
