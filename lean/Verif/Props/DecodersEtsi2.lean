import Verif.Props.DecodersEtsi
/-
C57: the blocks of a data transmission. `from_bytes` returns `x` exactly if the data begin with a block that means `x`.
-/

set_option autoImplicit false
set_option linter.unusedSimpArgs false
set_option maxRecDepth 4000

namespace Dmr.Wire

open Spec Etsi

/-- C57: `DmrData.Rate1LastBlockUnconfirmed`, 24 octets. -/
theorem C57_block_rate1_last_block_unconfirmed (b : Bytes) (x : DmrData.Rate1LastBlockUnconfirmed) :
    fromBytes DmrData.Rate1LastBlockUnconfirmed.read b = .ok x ↔
      ∃ (user_data : Octets 20) (message_crc32 : Octets 4) (rest : Bytes),
        b = pack f[user_data, message_crc32] ++ rest ∧
        x = { user_data := user_data.val, message_crc32 := message_crc32.val } := by
  rw [DmrData.Rate1LastBlockUnconfirmed.fixed.fromBytes]
  constructor
  · intro h
    by_cases hl : 24 ≤ b.length
    · rw [if_pos hl] at h
      cases h
      refine ⟨.at b 0 20 (by omega), .at b 20 4 (by omega), b.drop 24, ?_, ?_⟩
      · found hl
      · simp only [DmrData.Rate1LastBlockUnconfirmed.spec, toNat_fieldAt, Octets.at, Nat.mul_zero, Nat.zero_add]
    · rw [if_neg hl] at h
      cases h
  · rintro ⟨user_data, message_crc32, rest, rfl, rfl⟩
    packed
    rw [if_pos (by omega)]
    have hs := And.intro (slice_bits m 0 20 (by omega)) (slice_bits m 20 4 (by omega))
    simp only [Nat.reduceMul, hf, octets_ofOctets] at hs
    simp only [DmrData.Rate1LastBlockUnconfirmed.spec, flagAt, Nat.mul_zero, Nat.zero_add, Nat.reduceMul, hf, hs, toNat_beq_one]

/-- C57: `DmrData.Rate12LastBlockConfirmed`, 12 octets. -/
theorem C57_block_rate12_last_block_confirmed (b : Bytes) (x : DmrData.Rate12LastBlockConfirmed) :
    fromBytes DmrData.Rate12LastBlockConfirmed.read b = .ok x ↔
      ∃ (data_block_serial_number : BitVec 7) (crc9 : BitVec 9) (user_data : Octets 6) (message_crc32 : Octets 4) (rest :
        Bytes),
        b = pack f[data_block_serial_number, crc9, user_data, message_crc32] ++ rest ∧
        x = { data_block_serial_number := data_block_serial_number.toNat, crc9 := crc9.toNat, user_data := user_data.val,
              message_crc32 := message_crc32.val } := by
  rw [DmrData.Rate12LastBlockConfirmed.fixed.fromBytes]
  constructor
  · intro h
    by_cases hl : 12 ≤ b.length
    · rw [if_pos hl] at h
      cases h
      refine ⟨fieldAt b 0 7, fieldAt b 7 9, .at b 2 6 (by omega), .at b 8 4 (by omega), b.drop 12, ?_, ?_⟩
      · found hl
      · simp only [DmrData.Rate12LastBlockConfirmed.spec, toNat_fieldAt, Octets.at, Nat.mul_zero, Nat.zero_add]
    · rw [if_neg hl] at h
      cases h
  · rintro ⟨data_block_serial_number, crc9, user_data, message_crc32, rest, rfl, rfl⟩
    packed
    rw [if_pos (by omega)]
    have hs := And.intro (slice_bits m 2 6 (by omega)) (slice_bits m 8 4 (by omega))
    simp only [Nat.reduceMul, hf, octets_ofOctets] at hs
    simp only [DmrData.Rate12LastBlockConfirmed.spec, flagAt, Nat.mul_zero, Nat.zero_add, Nat.reduceMul, hf, hs, toNat_beq_one]

/-- C57: `DmrData.Rate12Confirmed`, 12 octets. -/
theorem C57_block_rate12_confirmed (b : Bytes) (x : DmrData.Rate12Confirmed) :
    fromBytes DmrData.Rate12Confirmed.read b = .ok x ↔
      ∃ (data_block_serial_number : BitVec 7) (crc9 : BitVec 9) (user_data : Octets 10) (rest : Bytes),
        b = pack f[data_block_serial_number, crc9, user_data] ++ rest ∧
        x = { data_block_serial_number := data_block_serial_number.toNat, crc9 := crc9.toNat, user_data := user_data.val }
              := by
  rw [DmrData.Rate12Confirmed.fixed.fromBytes]
  constructor
  · intro h
    by_cases hl : 12 ≤ b.length
    · rw [if_pos hl] at h
      cases h
      refine ⟨fieldAt b 0 7, fieldAt b 7 9, .at b 2 10 (by omega), b.drop 12, ?_, ?_⟩
      · found hl
      · simp only [DmrData.Rate12Confirmed.spec, toNat_fieldAt, Octets.at, Nat.mul_zero, Nat.zero_add]
    · rw [if_neg hl] at h
      cases h
  · rintro ⟨data_block_serial_number, crc9, user_data, rest, rfl, rfl⟩
    packed
    rw [if_pos (by omega)]
    have hs := And.intro (slice_bits m 2 10 (by omega)) trivial
    simp only [Nat.reduceMul, hf, octets_ofOctets] at hs
    simp only [DmrData.Rate12Confirmed.spec, flagAt, Nat.mul_zero, Nat.zero_add, Nat.reduceMul, hf, hs, toNat_beq_one]

/-- C57: `DmrData.Rate34LastBlockUnconfirmed`, 18 octets. -/
theorem C57_block_rate34_last_block_unconfirmed (b : Bytes) (x : DmrData.Rate34LastBlockUnconfirmed) :
    fromBytes DmrData.Rate34LastBlockUnconfirmed.read b = .ok x ↔
      ∃ (user_data : Octets 14) (message_crc32 : Octets 4) (rest : Bytes),
        b = pack f[user_data, message_crc32] ++ rest ∧
        x = { user_data := user_data.val, message_crc32 := message_crc32.val } := by
  rw [DmrData.Rate34LastBlockUnconfirmed.fixed.fromBytes]
  constructor
  · intro h
    by_cases hl : 18 ≤ b.length
    · rw [if_pos hl] at h
      cases h
      refine ⟨.at b 0 14 (by omega), .at b 14 4 (by omega), b.drop 18, ?_, ?_⟩
      · found hl
      · simp only [DmrData.Rate34LastBlockUnconfirmed.spec, toNat_fieldAt, Octets.at, Nat.mul_zero, Nat.zero_add]
    · rw [if_neg hl] at h
      cases h
  · rintro ⟨user_data, message_crc32, rest, rfl, rfl⟩
    packed
    rw [if_pos (by omega)]
    have hs := And.intro (slice_bits m 0 14 (by omega)) (slice_bits m 14 4 (by omega))
    simp only [Nat.reduceMul, hf, octets_ofOctets] at hs
    simp only [DmrData.Rate34LastBlockUnconfirmed.spec, flagAt, Nat.mul_zero, Nat.zero_add, Nat.reduceMul, hf, hs, toNat_beq_one]

/-- C57: `DmrData.Rate1LastBlockConfirmed`, 24 octets. -/
theorem C57_block_rate1_last_block_confirmed (b : Bytes) (x : DmrData.Rate1LastBlockConfirmed) :
    fromBytes DmrData.Rate1LastBlockConfirmed.read b = .ok x ↔
      ∃ (data_block_serial_number : BitVec 7) (crc9 : BitVec 9) (user_data : Octets 18) (message_crc32 : Octets 4) (rest :
        Bytes),
        b = pack f[data_block_serial_number, crc9, user_data, message_crc32] ++ rest ∧
        x = { data_block_serial_number := data_block_serial_number.toNat, crc9 := crc9.toNat, user_data := user_data.val,
              message_crc32 := message_crc32.val } := by
  rw [DmrData.Rate1LastBlockConfirmed.fixed.fromBytes]
  constructor
  · intro h
    by_cases hl : 24 ≤ b.length
    · rw [if_pos hl] at h
      cases h
      refine ⟨fieldAt b 0 7, fieldAt b 7 9, .at b 2 18 (by omega), .at b 20 4 (by omega), b.drop 24, ?_, ?_⟩
      · found hl
      · simp only [DmrData.Rate1LastBlockConfirmed.spec, toNat_fieldAt, Octets.at, Nat.mul_zero, Nat.zero_add]
    · rw [if_neg hl] at h
      cases h
  · rintro ⟨data_block_serial_number, crc9, user_data, message_crc32, rest, rfl, rfl⟩
    packed
    rw [if_pos (by omega)]
    have hs := And.intro (slice_bits m 2 18 (by omega)) (slice_bits m 20 4 (by omega))
    simp only [Nat.reduceMul, hf, octets_ofOctets] at hs
    simp only [DmrData.Rate1LastBlockConfirmed.spec, flagAt, Nat.mul_zero, Nat.zero_add, Nat.reduceMul, hf, hs, toNat_beq_one]

/-- C57: `DmrData.Rate1Unconfirmed`, 24 octets. -/
theorem C57_block_rate1_unconfirmed (b : Bytes) (x : DmrData.Rate1Unconfirmed) :
    fromBytes DmrData.Rate1Unconfirmed.read b = .ok x ↔
      ∃ (user_data : Octets 24) (rest : Bytes),
        b = pack f[user_data] ++ rest ∧
        x = { user_data := user_data.val } := by
  rw [DmrData.Rate1Unconfirmed.fixed.fromBytes]
  constructor
  · intro h
    by_cases hl : 24 ≤ b.length
    · rw [if_pos hl] at h
      cases h
      refine ⟨.at b 0 24 (by omega), b.drop 24, ?_, ?_⟩
      · found hl
      · simp only [DmrData.Rate1Unconfirmed.spec, toNat_fieldAt, Octets.at, Nat.mul_zero, Nat.zero_add]
    · rw [if_neg hl] at h
      cases h
  · rintro ⟨user_data, rest, rfl, rfl⟩
    packed
    rw [if_pos (by omega)]
    have hs := And.intro (slice_bits m 0 24 (by omega)) trivial
    simp only [Nat.reduceMul, hf, octets_ofOctets] at hs
    simp only [DmrData.Rate1Unconfirmed.spec, flagAt, Nat.mul_zero, Nat.zero_add, Nat.reduceMul, hf, hs, toNat_beq_one]

/-- C57: `DmrData.UdtLastBlock`, 12 octets. -/
theorem C57_block_udt_last_block (b : Bytes) (x : DmrData.UdtLastBlock) :
    fromBytes DmrData.UdtLastBlock.read b = .ok x ↔
      ∃ (user_data : Octets 10) (message_crc16 : Octets 2) (rest : Bytes),
        b = pack f[user_data, message_crc16] ++ rest ∧
        x = { user_data := user_data.val, message_crc16 := message_crc16.val } := by
  rw [DmrData.UdtLastBlock.fixed.fromBytes]
  constructor
  · intro h
    by_cases hl : 12 ≤ b.length
    · rw [if_pos hl] at h
      cases h
      refine ⟨.at b 0 10 (by omega), .at b 10 2 (by omega), b.drop 12, ?_, ?_⟩
      · found hl
      · simp only [DmrData.UdtLastBlock.spec, toNat_fieldAt, Octets.at, Nat.mul_zero, Nat.zero_add]
    · rw [if_neg hl] at h
      cases h
  · rintro ⟨user_data, message_crc16, rest, rfl, rfl⟩
    packed
    rw [if_pos (by omega)]
    have hs := And.intro (slice_bits m 0 10 (by omega)) (slice_bits m 10 2 (by omega))
    simp only [Nat.reduceMul, hf, octets_ofOctets] at hs
    simp only [DmrData.UdtLastBlock.spec, flagAt, Nat.mul_zero, Nat.zero_add, Nat.reduceMul, hf, hs, toNat_beq_one]

/-- C57: `DmrData.Rate34Confirmed`, 18 octets. -/
theorem C57_block_rate34_confirmed (b : Bytes) (x : DmrData.Rate34Confirmed) :
    fromBytes DmrData.Rate34Confirmed.read b = .ok x ↔
      ∃ (data_block_serial_number : BitVec 7) (crc9 : BitVec 9) (user_data : Octets 16) (rest : Bytes),
        b = pack f[data_block_serial_number, crc9, user_data] ++ rest ∧
        x = { data_block_serial_number := data_block_serial_number.toNat, crc9 := crc9.toNat, user_data := user_data.val }
              := by
  rw [DmrData.Rate34Confirmed.fixed.fromBytes]
  constructor
  · intro h
    by_cases hl : 18 ≤ b.length
    · rw [if_pos hl] at h
      cases h
      refine ⟨fieldAt b 0 7, fieldAt b 7 9, .at b 2 16 (by omega), b.drop 18, ?_, ?_⟩
      · found hl
      · simp only [DmrData.Rate34Confirmed.spec, toNat_fieldAt, Octets.at, Nat.mul_zero, Nat.zero_add]
    · rw [if_neg hl] at h
      cases h
  · rintro ⟨data_block_serial_number, crc9, user_data, rest, rfl, rfl⟩
    packed
    rw [if_pos (by omega)]
    have hs := And.intro (slice_bits m 2 16 (by omega)) trivial
    simp only [Nat.reduceMul, hf, octets_ofOctets] at hs
    simp only [DmrData.Rate34Confirmed.spec, flagAt, Nat.mul_zero, Nat.zero_add, Nat.reduceMul, hf, hs, toNat_beq_one]

/-- C57: `DmrData.Rate34LastBlockConfirmed`, 18 octets. -/
theorem C57_block_rate34_last_block_confirmed (b : Bytes) (x : DmrData.Rate34LastBlockConfirmed) :
    fromBytes DmrData.Rate34LastBlockConfirmed.read b = .ok x ↔
      ∃ (data_block_serial_number : BitVec 7) (crc9 : BitVec 9) (user_data : Octets 12) (message_crc32 : Octets 4) (rest :
        Bytes),
        b = pack f[data_block_serial_number, crc9, user_data, message_crc32] ++ rest ∧
        x = { data_block_serial_number := data_block_serial_number.toNat, crc9 := crc9.toNat, user_data := user_data.val,
              message_crc32 := message_crc32.val } := by
  rw [DmrData.Rate34LastBlockConfirmed.fixed.fromBytes]
  constructor
  · intro h
    by_cases hl : 18 ≤ b.length
    · rw [if_pos hl] at h
      cases h
      refine ⟨fieldAt b 0 7, fieldAt b 7 9, .at b 2 12 (by omega), .at b 14 4 (by omega), b.drop 18, ?_, ?_⟩
      · found hl
      · simp only [DmrData.Rate34LastBlockConfirmed.spec, toNat_fieldAt, Octets.at, Nat.mul_zero, Nat.zero_add]
    · rw [if_neg hl] at h
      cases h
  · rintro ⟨data_block_serial_number, crc9, user_data, message_crc32, rest, rfl, rfl⟩
    packed
    rw [if_pos (by omega)]
    have hs := And.intro (slice_bits m 2 12 (by omega)) (slice_bits m 14 4 (by omega))
    simp only [Nat.reduceMul, hf, octets_ofOctets] at hs
    simp only [DmrData.Rate34LastBlockConfirmed.spec, flagAt, Nat.mul_zero, Nat.zero_add, Nat.reduceMul, hf, hs, toNat_beq_one]

/-- C57: `DmrData.Rate34Unconfirmed`, 18 octets. -/
theorem C57_block_rate34_unconfirmed (b : Bytes) (x : DmrData.Rate34Unconfirmed) :
    fromBytes DmrData.Rate34Unconfirmed.read b = .ok x ↔
      ∃ (user_data : Octets 18) (rest : Bytes),
        b = pack f[user_data] ++ rest ∧
        x = { user_data := user_data.val } := by
  rw [DmrData.Rate34Unconfirmed.fixed.fromBytes]
  constructor
  · intro h
    by_cases hl : 18 ≤ b.length
    · rw [if_pos hl] at h
      cases h
      refine ⟨.at b 0 18 (by omega), b.drop 18, ?_, ?_⟩
      · found hl
      · simp only [DmrData.Rate34Unconfirmed.spec, toNat_fieldAt, Octets.at, Nat.mul_zero, Nat.zero_add]
    · rw [if_neg hl] at h
      cases h
  · rintro ⟨user_data, rest, rfl, rfl⟩
    packed
    rw [if_pos (by omega)]
    have hs := And.intro (slice_bits m 0 18 (by omega)) trivial
    simp only [Nat.reduceMul, hf, octets_ofOctets] at hs
    simp only [DmrData.Rate34Unconfirmed.spec, flagAt, Nat.mul_zero, Nat.zero_add, Nat.reduceMul, hf, hs, toNat_beq_one]

/-- C57: `DmrData.Rate12LastBlockUnconfirmed`, 12 octets. -/
theorem C57_block_rate12_last_block_unconfirmed (b : Bytes) (x : DmrData.Rate12LastBlockUnconfirmed) :
    fromBytes DmrData.Rate12LastBlockUnconfirmed.read b = .ok x ↔
      ∃ (user_data : Octets 8) (message_crc32 : Octets 4) (rest : Bytes),
        b = pack f[user_data, message_crc32] ++ rest ∧
        x = { user_data := user_data.val, message_crc32 := message_crc32.val } := by
  rw [DmrData.Rate12LastBlockUnconfirmed.fixed.fromBytes]
  constructor
  · intro h
    by_cases hl : 12 ≤ b.length
    · rw [if_pos hl] at h
      cases h
      refine ⟨.at b 0 8 (by omega), .at b 8 4 (by omega), b.drop 12, ?_, ?_⟩
      · found hl
      · simp only [DmrData.Rate12LastBlockUnconfirmed.spec, toNat_fieldAt, Octets.at, Nat.mul_zero, Nat.zero_add]
    · rw [if_neg hl] at h
      cases h
  · rintro ⟨user_data, message_crc32, rest, rfl, rfl⟩
    packed
    rw [if_pos (by omega)]
    have hs := And.intro (slice_bits m 0 8 (by omega)) (slice_bits m 8 4 (by omega))
    simp only [Nat.reduceMul, hf, octets_ofOctets] at hs
    simp only [DmrData.Rate12LastBlockUnconfirmed.spec, flagAt, Nat.mul_zero, Nat.zero_add, Nat.reduceMul, hf, hs, toNat_beq_one]

/-- C57: `DmrData.Rate1Confirmed`, 24 octets. -/
theorem C57_block_rate1_confirmed (b : Bytes) (x : DmrData.Rate1Confirmed) :
    fromBytes DmrData.Rate1Confirmed.read b = .ok x ↔
      ∃ (data_block_serial_number : BitVec 7) (crc9 : BitVec 9) (user_data : Octets 22) (rest : Bytes),
        b = pack f[data_block_serial_number, crc9, user_data] ++ rest ∧
        x = { data_block_serial_number := data_block_serial_number.toNat, crc9 := crc9.toNat, user_data := user_data.val }
              := by
  rw [DmrData.Rate1Confirmed.fixed.fromBytes]
  constructor
  · intro h
    by_cases hl : 24 ≤ b.length
    · rw [if_pos hl] at h
      cases h
      refine ⟨fieldAt b 0 7, fieldAt b 7 9, .at b 2 22 (by omega), b.drop 24, ?_, ?_⟩
      · found hl
      · simp only [DmrData.Rate1Confirmed.spec, toNat_fieldAt, Octets.at, Nat.mul_zero, Nat.zero_add]
    · rw [if_neg hl] at h
      cases h
  · rintro ⟨data_block_serial_number, crc9, user_data, rest, rfl, rfl⟩
    packed
    rw [if_pos (by omega)]
    have hs := And.intro (slice_bits m 2 22 (by omega)) trivial
    simp only [Nat.reduceMul, hf, octets_ofOctets] at hs
    simp only [DmrData.Rate1Confirmed.spec, flagAt, Nat.mul_zero, Nat.zero_add, Nat.reduceMul, hf, hs, toNat_beq_one]

/-- C57: `DmrData.Rate12Unconfirmed`, 12 octets. -/
theorem C57_block_rate12_unconfirmed (b : Bytes) (x : DmrData.Rate12Unconfirmed) :
    fromBytes DmrData.Rate12Unconfirmed.read b = .ok x ↔
      ∃ (user_data : Octets 12) (rest : Bytes),
        b = pack f[user_data] ++ rest ∧
        x = { user_data := user_data.val } := by
  rw [DmrData.Rate12Unconfirmed.fixed.fromBytes]
  constructor
  · intro h
    by_cases hl : 12 ≤ b.length
    · rw [if_pos hl] at h
      cases h
      refine ⟨.at b 0 12 (by omega), b.drop 12, ?_, ?_⟩
      · found hl
      · simp only [DmrData.Rate12Unconfirmed.spec, toNat_fieldAt, Octets.at, Nat.mul_zero, Nat.zero_add]
    · rw [if_neg hl] at h
      cases h
  · rintro ⟨user_data, rest, rfl, rfl⟩
    packed
    rw [if_pos (by omega)]
    have hs := And.intro (slice_bits m 0 12 (by omega)) trivial
    simp only [Nat.reduceMul, hf, octets_ofOctets] at hs
    simp only [DmrData.Rate12Unconfirmed.spec, flagAt, Nat.mul_zero, Nat.zero_add, Nat.reduceMul, hf, hs, toNat_beq_one]

/-- C57: `DmrDataHeader.DataHeaderShortRaw`, 12 octets. -/
theorem C57_header_short_raw (b : Bytes) (x : DmrDataHeader.DataHeaderShortRaw) :
    fromBytes DmrDataHeader.DataHeaderShortRaw.read b = .ok x ↔
      ∃ (llid_destination_is_group response_requested : Bool) (appended_blocks_msb : BitVec 2) (format sap_identifier
        appended_blocks_lsb : BitVec 4) (llid_destination llid_source : BitVec 24) (source_port destination_port : BitVec 3)
        (selective_automatic_repeat_request full_message_flag : Bool) (bit_padding : BitVec 8) (crc : Octets 2) (rest :
        Bytes),
        b = pack f[llid_destination_is_group, response_requested, appended_blocks_msb, format, sap_identifier,
          appended_blocks_lsb, llid_destination, llid_source, source_port, destination_port,
          selective_automatic_repeat_request, full_message_flag, bit_padding, crc] ++ rest ∧
        x = { llid_destination_is_group := llid_destination_is_group, response_requested := response_requested,
              appended_blocks_msb := appended_blocks_msb.toNat, format := resolveEnum _ format.toNat, sap_identifier :=
              resolveEnum _ sap_identifier.toNat, appended_blocks_lsb := appended_blocks_lsb.toNat, llid_destination :=
              llid_destination.toNat, llid_source := llid_source.toNat, source_port := source_port.toNat, destination_port
              := destination_port.toNat, selective_automatic_repeat_request := selective_automatic_repeat_request,
              full_message_flag := full_message_flag, bit_padding := bit_padding.toNat, crc := crc.val } := by
  rw [DmrDataHeader.DataHeaderShortRaw.fixed.fromBytes]
  constructor
  · intro h
    by_cases hl : 12 ≤ b.length
    · rw [if_pos hl] at h
      cases h
      refine ⟨flagAt b 0, flagAt b 1, fieldAt b 2 2, fieldAt b 4 4, fieldAt b 8 4, fieldAt b 12 4, fieldAt b 16 24, fieldAt b 40 24, fieldAt b 64 3, fieldAt b 67 3, flagAt b 70, flagAt b 71, fieldAt b 72 8, .at b 10 2 (by omega), b.drop 12, ?_, ?_⟩
      · found hl
      · simp only [DmrDataHeader.DataHeaderShortRaw.spec, toNat_fieldAt, Octets.at, Nat.mul_zero, Nat.zero_add]
    · rw [if_neg hl] at h
      cases h
  · rintro ⟨llid_destination_is_group, response_requested, appended_blocks_msb, format, sap_identifier, appended_blocks_lsb, llid_destination, llid_source, source_port, destination_port, selective_automatic_repeat_request, full_message_flag, bit_padding, crc, rest, rfl, rfl⟩
    packed
    rw [if_pos (by omega)]
    have hs := And.intro (slice_bits m 10 2 (by omega)) trivial
    simp only [Nat.reduceMul, hf, octets_ofOctets] at hs
    simp only [DmrDataHeader.DataHeaderShortRaw.spec, flagAt, Nat.mul_zero, Nat.zero_add, Nat.reduceMul, hf, hs, toNat_beq_one]

/-- A confirmed block of rate 1/2. -/
example : fromBytes DmrData.Rate12Confirmed.read [3, 0xFF, 1, 2, 3, 4, 5, 6, 7, 8, 9, 10] = .ok ⟨1, 0x1FF, [1, 2, 3, 4, 5, 6, 7, 8, 9, 10]⟩ :=
  (C57_block_rate12_confirmed _ _).2 ⟨1#7, 0x1FF#9, ⟨[1, 2, 3, 4, 5, 6, 7, 8, 9, 10], rfl⟩, [], by decide, rfl⟩

end Dmr.Wire
